import Verif.Proofs.QPCHot
import Verif.Proofs.QPBInit

/-!
Setting up the first working set of the general solver.
-/
namespace QpOASES
open Finset Props SubjectToStatus SubjectToType ReturnValue HessianType QProblemStatus
open QPB (Proper)

set_option linter.unusedSectionVars false

variable {K : Type} [Field K] [LinearOrder K] [IsStrictOrderedRing K]

namespace QPC

/-- The parts of the factorisation that exist before the Hessian is factorised -/
structure Base (s : QPC K) : Prop where
  shape : s.Shape
  tq : s.TQ
  sym : s.SymH

/-- The working set has grown from that of `s` to that of `s'`; nothing else but the factors has changed.  An equality constraint may have
been given up. -/
structure Grown (s' s : QPC K) : Prop where
  frame : ∃ T Q R wB wC, s' = { s with T := T, Q := Q, R := R, bounds := wB, cons := wC }
  typeB : s'.bounds.type = s.bounds.type
  noLowerB : s'.bounds.noLower = s.bounds.noLower
  noUpperB : s'.bounds.noUpper = s.bounds.noUpper
  typeC : ∀ i, s'.cons.type i = s.cons.type i ∨ (s.cons.type i = ST_EQUALITY ∧ s'.cons.type i = ST_BOUNDED)
  noLowerC : s'.cons.noLower = s.cons.noLower
  noUpperC : s'.cons.noUpper = s.cons.noUpper
  keepB : ∀ i, s.bounds.status i ≠ ST_INACTIVE → s'.bounds.status i = s.bounds.status i
  keepC : ∀ i, s.cons.status i ≠ ST_INACTIVE → s'.cons.status i = s.cons.status i
  mono : s.nFX + s.nAC ≤ s'.nFX + s'.nAC
  plain : s'.nFX + s'.nAC = 0 → s'.nFR = 0 ∨ (s'.Q = s.Q ∧ s'.bounds = s.bounds)

theorem Grown.refl (s : QPC K) : Grown s s :=
  ⟨⟨s.T, s.Q, s.R, s.bounds, s.cons, rfl⟩, rfl, rfl, rfl, fun _ => Or.inl rfl, rfl, rfl, fun _ _ => rfl, fun _ _ => rfl, le_refl _, fun _ => Or.inr ⟨rfl, rfl⟩⟩

theorem Grown.trans {a b c : QPC K} (h : Grown a b) (g : Grown b c) : Grown a c := by
  refine ⟨?_, h.typeB.trans g.typeB, h.noLowerB.trans g.noLowerB, h.noUpperB.trans g.noUpperB, fun i => ?_, h.noLowerC.trans g.noLowerC,
    h.noUpperC.trans g.noUpperC, fun i hi => ?_, fun i hi => ?_, g.mono.trans h.mono, fun h0 => ?_⟩
  · obtain ⟨T, Q, R, wB, wC, e⟩ := h.frame
    obtain ⟨T', Q', R', wB', wC', e'⟩ := g.frame
    exact ⟨T, Q, R, wB, wC, by rw [e, e']⟩
  · rcases g.typeC i with h1 | ⟨h1, h2⟩
    · rw [← h1]; exact h.typeC i
    · rcases h.typeC i with h3 | ⟨h3, _⟩
      · exact Or.inr ⟨h1, h3.trans h2⟩
      · rw [h2] at h3; cases h3
  · have h1 := g.keepB i hi
    rw [h.keepB i (by rw [h1]; exact hi), h1]
  · have h1 := g.keepC i hi
    rw [h.keepC i (by rw [h1]; exact hi), h1]
  · rcases h.plain h0 with h1 | ⟨h1, h2⟩
    · exact Or.inl h1
    · rcases g.plain (by have := h.mono; omega) with h3 | ⟨h3, h4⟩
      · left
        show a.bounds.nFR = 0
        rw [h2]; exact h3
      · exact Or.inr ⟨h1.trans h3, h2.trans h4⟩

theorem Grown.nV {s' s : QPC K} (h : Grown s' s) : s'.nV = s.nV := by obtain ⟨T, Q, R, wB, wC, e⟩ := h.frame; rw [e]
theorem Grown.nC {s' s : QPC K} (h : Grown s' s) : s'.nC = s.nC := by obtain ⟨T, Q, R, wB, wC, e⟩ := h.frame; rw [e]
theorem Grown.options {s' s : QPC K} (h : Grown s' s) : s'.options = s.options := by obtain ⟨T, Q, R, wB, wC, e⟩ := h.frame; rw [e]

theorem addBoundAs_spec {sq : K → K} {s s' : QPC K} (h : s.Base) {i : Nat} (hi : i < s.nV) {st : SubjectToStatus}
    (hst : st = ST_LOWER ∨ st = ST_UPPER) (hz : s.bounds.status i = ST_INACTIVE → 0 < s.nZ)
    (hc : s.bounds.status i = ST_INACTIVE → s.CleanAddB sq i false)
    (e : addBoundAs sq s i st false = .ok (SUCCESSFUL_RETURN, s')) :
    s'.Base ∧ Grown s' s ∧ s'.bounds.status i ≠ ST_INACTIVE ∧ s'.cons = s.cons := by
  unfold addBoundAs at e
  rw [if_neg (by decide)] at e
  unfold addBoundPlain at e
  have hlt : i < s.bounds.n := by rw [h.shape.nB]; exact hi
  by_cases hin : s.bounds.status i = ST_INACTIVE
  · have hm : i ∈ s.bounds.free := h.shape.okB.mem_free_iff.2 ⟨hlt, hin⟩
    have hp : addBoundUpdate sq s i st false = .ok (SUCCESSFUL_RETURN, s') := by
      split at e
      · rename_i r hr
        unfold addBoundCheck at hr
        split at hr
        · cases hr; cases e
        · split at hr
          · cases hr; cases e
          · split at hr
            · cases hr; cases e
            · cases hr
      · exact e
    obtain ⟨T, Q, R, k1, k2, k3, _⟩ := addBoundUpdate_spec h.shape h.tq h.sym hm hst (hz hin) (fun hh => by cases hh) (hc hin)
    obtain ⟨_, _, _, _, _, b6, _, b8, b9, b10, b11, _⟩ := swapped_spec h.shape hm
    rw [k1] at hp
    simp only [Res.ok.injEq, Prod.mk.injEq, true_and] at hp
    subst hp
    refine ⟨⟨k2, k3, h.sym⟩, ⟨⟨_, _, _, _, _, rfl⟩, b9, b10, b11, fun _ => Or.inl rfl, rfl, rfl, fun j hj => ?_, fun _ _ => rfl, ?_, fun h0 => ?_⟩, ?_, rfl⟩
    · have hji : j ≠ i := fun e => hj (e ▸ hin)
      show updA (s.swapped i).status i st j = _
      rw [updA_ne _ _ hji, b8]
    · show s.nFX + s.nAC ≤ ((s.swapped i).moveFreeToFixed i st).nFX + s.nAC
      rw [WS.nFX_moveFreeToFixed, show (s.swapped i).nFX = s.nFX from congrArg List.length b6]
      omega
    · have h0 : ((s.swapped i).moveFreeToFixed i st).nFX + s.nAC = 0 := h0
      rw [WS.nFX_moveFreeToFixed] at h0
      omega
    · show updA (s.swapped i).status i st i ≠ _
      rw [updA_same]
      rcases hst with e | e <;> rw [e] <;> decide
  · exfalso
    have hr : s.addBoundCheck i = some RET_BOUND_ALREADY_ACTIVE := by
      unfold addBoundCheck
      rw [if_pos (by rw [WS.getStatus_of_lt hlt]; exact hin)]
    rw [hr] at e
    cases e

theorem addConstraintAs_spec {sq : K → K} {s s' : QPC K} (h : s.Base) {i : Nat} (hi : i < s.nC) {st : SubjectToStatus}
    (hst : st = ST_LOWER ∨ st = ST_UPPER) (hz : s.cons.status i = ST_INACTIVE → 0 < s.nZ)
    (hc : s.cons.status i = ST_INACTIVE → s.CleanAddC sq i false)
    (e : addConstraintAs sq s i st false = .ok (SUCCESSFUL_RETURN, s')) :
    s'.Base ∧ Grown s' s ∧ s'.cons.status i ≠ ST_INACTIVE ∧ s'.bounds = s.bounds := by
  unfold addConstraintAs at e
  rw [if_neg (by decide)] at e
  unfold addConstraintPlain at e
  have hlt : i < s.cons.n := by rw [h.shape.nC]; exact hi
  by_cases hin : s.cons.status i = ST_INACTIVE
  · have hm : i ∈ s.cons.free := h.shape.okC.mem_free_iff.2 ⟨hlt, hin⟩
    have hp : addConstraintUpdate sq s i st false = .ok (SUCCESSFUL_RETURN, s') := by
      split at e
      · rename_i r hr
        unfold addConstraintCheck at hr
        split at hr
        · cases hr; cases e
        · split at hr
          · cases hr; cases e
          · split at hr
            · cases hr; cases e
            · cases hr
      · exact e
    obtain ⟨T, Q, R, k1, k2, k3, _⟩ := addConstraintUpdate_spec h.shape h.tq h.sym hm hst (hz hin) (fun hh => by cases hh) (hc hin)
    rw [k1] at hp
    simp only [Res.ok.injEq, Prod.mk.injEq, true_and] at hp
    subst hp
    refine ⟨⟨k2, k3, h.sym⟩, ⟨⟨_, _, _, _, _, rfl⟩, rfl, rfl, rfl, fun _ => Or.inl rfl, rfl, rfl, fun _ _ => rfl, fun j hj => ?_, ?_, fun h0 => ?_⟩, ?_, rfl⟩
    · have hji : j ≠ i := fun e => hj (e ▸ hin)
      exact updA_ne _ _ hji
    · show s.nFX + s.nAC ≤ s.nFX + (s.cons.moveFreeToFixed i st).nFX
      rw [WS.nFX_moveFreeToFixed]
      have : s.nAC = s.cons.nFX := rfl
      omega
    · have h0 : s.nFX + (s.cons.moveFreeToFixed i st).nFX = 0 := h0
      rw [WS.nFX_moveFreeToFixed] at h0
      omega
    · show updA s.cons.status i st i ≠ _
      rw [updA_same]
      rcases hst with e | e <;> rw [e] <;> decide
  · exfalso
    have hr : s.addConstraintCheck i = some RET_CONSTRAINT_ALREADY_ACTIVE := by
      unfold addConstraintCheck
      rw [if_pos (by rw [WS.getStatus_of_lt hlt]; exact hin)]
    rw [hr] at e
    cases e

/-- Loops whose invariant depends on the index -/
theorem seqLoop_index {c : Nat → QPC K → Prop} {f : Nat → QPC K → Res (ReturnValue × QPC K)} {n : Nat} (I : Nat → QPC K → Prop)
    (step : ∀ i s s', i < n → I i s → c i s → f i s = .ok (SUCCESSFUL_RETURN, s') → I (i+1) s') :
    ∀ (m i : Nat) (s s' : QPC K), i + m = n → I i s → SeqClean c f m i s → seqLoop f m i s = .ok (SUCCESSFUL_RETURN, s') → I n s' := by
  intro m
  induction m with
  | zero =>
    intro i s s' hn h _ e
    simp only [seqLoop, Res.ok.injEq, Prod.mk.injEq, true_and] at e
    subst e
    have : i = n := by omega
    exact this ▸ h
  | succ m ih =>
    intro i s s' hn h hc e
    rw [seqLoop, Res.bind_eq_ok] at e
    obtain ⟨⟨r, s1⟩, e1, e⟩ := e
    dsimp only at e
    split at e
    · next hr => simp only [Res.ok.injEq, Prod.mk.injEq] at e; exact absurd e.1 hr
    · next hr =>
      rw [not_not] at hr
      subst hr
      exact ih (i+1) s1 s' (by omega) (step i s s1 (by omega) h hc.1 e1) (hc.2 s1 e1) e

/-- An independent member can be added only if the null space is not trivial. -/
theorem nZ_of_check {s : QPC K} {i : Nat} (hf : s.options.enableFullLITests = false) (h : s.checkLIBound i = .ok true ∨ s.checkLIConstraint i = .ok true) :
    0 < s.nZ := by
  have key : ∀ p : Nat → Bool, (List.range s.nZ).any p = true → 0 < s.nZ := by
    intro p hp
    rw [List.any_eq_true] at hp
    obtain ⟨j, hj, _⟩ := hp
    have := List.mem_range.1 hj
    omega
  rcases h with h | h
  · unfold checkLIBound at h
    rw [if_neg (by rw [hf]; decide)] at h
    simp only [Res.ok.injEq] at h
    exact key _ h
  · unfold checkLIConstraint at h
    rw [if_neg (by rw [hf]; decide)] at h
    simp only [Res.ok.injEq] at h
    exact key _ h

/-- The additions of the four loops are exact. -/
def EqBClean (sq : K → K) (i : Nat) (s : QPC K) : Prop := s.bounds.type i = ST_EQUALITY → s.bounds.status i = ST_INACTIVE → s.CleanAddB sq i false
def EqCClean (sq : K → K) (i : Nat) (s : QPC K) : Prop :=
  s.cons.type i = ST_EQUALITY → s.cons.status i = ST_INACTIVE → s.checkLIConstraint i = .ok true → s.CleanAddC sq i false
def AddBClean (sq : K → K) (w : WS) (i : Nat) (s : QPC K) : Prop :=
  s.bounds.type i ≠ ST_EQUALITY → s.bounds.status i = ST_INACTIVE → w.getStatus i ≠ ST_INACTIVE → s.checkLIBound i = .ok true → s.CleanAddB sq i false
def AddCClean (sq : K → K) (w : WS) (i : Nat) (s : QPC K) : Prop :=
  s.cons.type i ≠ ST_EQUALITY → w.getStatus i ≠ ST_INACTIVE → s.cons.status i = ST_INACTIVE → s.checkLIConstraint i = .ok true → s.CleanAddC sq i false

/-- All additions made when the first working set is set up are exact. -/
def LoopsClean (sq : K → K) (s : QPC K) (auxB auxC : WS) : Prop :=
  SeqClean (EqBClean sq) (auxEqB sq false) s.nV 0 s ∧
  ∀ s1, seqLoop (auxEqB sq false) s.nV 0 s = .ok (SUCCESSFUL_RETURN, s1) →
    SeqClean (EqCClean sq) (auxEqC sq false) s1.nC 0 s1 ∧
    ∀ s2, seqLoop (auxEqC sq false) s1.nC 0 s1 = .ok (SUCCESSFUL_RETURN, s2) →
      SeqClean (AddBClean sq auxB) (auxAddB sq (some auxB) false) s2.nV 0 s2 ∧
      ∀ s3, seqLoop (auxAddB sq (some auxB) false) s2.nV 0 s2 = .ok (SUCCESSFUL_RETURN, s3) →
        SeqClean (AddCClean sq auxC) (auxAddC sq (some auxC) false) s3.nC 0 s3

theorem auxEqB_loop {sq : K → K} {s s' : QPC K} (h : s.Base) (hac : s.nAC = 0) (hc : SeqClean (EqBClean sq) (auxEqB sq false) s.nV 0 s)
    (e : seqLoop (auxEqB sq false) s.nV 0 s = .ok (SUCCESSFUL_RETURN, s')) :
    s'.Base ∧ Grown s' s ∧ ∀ j < s.nV, s.bounds.type j = ST_EQUALITY → s'.bounds.status j ≠ ST_INACTIVE := by
  obtain ⟨h1, h2, h3, h4⟩ := seqLoop_index (n := s.nV) (c := EqBClean sq) (f := auxEqB sq false)
    (fun i t => t.Base ∧ Grown t s ∧ t.cons = s.cons ∧ ∀ j < i, s.bounds.type j = ST_EQUALITY → t.bounds.status j ≠ ST_INACTIVE)
    (fun i t t' hi ⟨a1, a2, a3, a4⟩ hcl et => by
      unfold auxEqB at et
      have hit : i < t.nV := by rw [a2.nV]; exact hi
      have hlt : i < t.bounds.n := by rw [a1.shape.nB]; exact hit
      rw [WS.getStatus_of_lt hlt] at et
      split at et
      · next hh =>
        obtain ⟨b1, b2, b3, b4⟩ := addBoundAs_spec a1 hit (Or.inl rfl) (fun hin => by
            have hm : i ∈ t.bounds.free := a1.shape.okB.mem_free_iff.2 ⟨hlt, hin⟩
            have h0 : t.nAC = 0 := by show t.cons.nFX = 0; rw [a3]; exact hac
            have : 0 < t.nFR := List.length_pos_of_mem hm
            show 0 < t.nFR - t.nAC
            omega) (fun hin => hcl hh.1 hin) et
        refine ⟨b1, b2.trans a2, b4.trans a3, fun j hj hty => ?_⟩
        by_cases hji : j = i
        · rw [hji]; exact b3
        · have := a4 j (by omega) hty
          rw [b2.keepB j this]; exact this
      · next hh =>
        simp only [Res.ok.injEq, Prod.mk.injEq, true_and] at et
        subst et
        refine ⟨a1, a2, a3, fun j hj hty => ?_⟩
        by_cases hji : j = i
        · rw [hji] at hty ⊢
          exact fun hin => hh ⟨by rw [a2.typeB]; exact hty, hin⟩
        · exact a4 j (by omega) hty)
    s.nV 0 s s' (by omega) ⟨h, Grown.refl s, rfl, fun j hj => by omega⟩ hc e
  exact ⟨h1, h2, h4⟩

theorem auxEqC_loop {sq : K → K} {s s' : QPC K} (h : s.Base) (hf : s.options.enableFullLITests = false)
    (hc : SeqClean (EqCClean sq) (auxEqC sq false) s.nC 0 s)
    (e : seqLoop (auxEqC sq false) s.nC 0 s = .ok (SUCCESSFUL_RETURN, s')) :
    s'.Base ∧ Grown s' s ∧ ∀ j < s.nC, s'.cons.type j = ST_EQUALITY → s'.cons.status j ≠ ST_INACTIVE := by
  obtain ⟨h1, h2, h4⟩ := seqLoop_index (n := s.nC) (c := EqCClean sq) (f := auxEqC sq false)
    (fun i t => t.Base ∧ Grown t s ∧ ∀ j < i, t.cons.type j = ST_EQUALITY → t.cons.status j ≠ ST_INACTIVE)
    (fun i t t' hi ⟨a1, a2, a4⟩ hcl et => by
      unfold auxEqC at et
      have hit : i < t.nC := by rw [a2.nC]; exact hi
      have hlt : i < t.cons.n := by rw [a1.shape.nC]; exact hit
      rw [WS.getStatus_of_lt hlt] at et
      split at et
      · next hh =>
        rw [Res.bind_eq_ok] at et
        obtain ⟨b, eb, et⟩ := et
        cases b with
        | true =>
          rw [if_pos rfl] at et
          obtain ⟨b1, b2, b3, b4⟩ := addConstraintAs_spec a1 hit (Or.inl rfl)
            (fun _ => nZ_of_check (by rw [a2.options]; exact hf) (Or.inr eb)) (fun hin => hcl hh.1 hin eb) et
          refine ⟨b1, b2.trans a2, fun j hj hty => ?_⟩
          by_cases hji : j = i
          · rw [hji]; exact b3
          · have hty' : t.cons.type j = ST_EQUALITY := by
              rcases b2.typeC j with h | ⟨_, h⟩
              · rw [← h]; exact hty
              · rw [h] at hty; cases hty
            have := a4 j (by omega) hty'
            rw [b2.keepC j this]; exact this
        | false =>
          rw [if_neg (by decide)] at et
          simp only [Res.ok.injEq, Prod.mk.injEq, true_and] at et
          subst et
          refine ⟨⟨⟨a1.shape.okB, ⟨a1.shape.okC.perm, a1.shape.okC.free, a1.shape.okC.fixed⟩, a1.shape.nB, a1.shape.nC, a1.shape.size⟩,
            ⟨a1.tq.le, a1.tq.tq⟩, a1.sym⟩, Grown.trans ⟨⟨_, _, _, _, _, rfl⟩, rfl, rfl, rfl, fun j => ?_, rfl, rfl, fun _ _ => rfl, fun _ _ => rfl, le_refl _, fun _ => Or.inr ⟨rfl, rfl⟩⟩ a2, fun j hj hty => ?_⟩
          · show updA t.cons.type i ST_BOUNDED j = _ ∨ _ ∧ updA t.cons.type i ST_BOUNDED j = _
            by_cases hji : j = i
            · subst hji
              rw [updA_same]; exact Or.inr ⟨hh.1, rfl⟩
            · rw [updA_ne _ _ hji]; exact Or.inl rfl
          · have hty : updA t.cons.type i ST_BOUNDED j = _ := hty
            by_cases hji : j = i
            · subst hji
              rw [updA_same] at hty; cases hty
            · rw [updA_ne _ _ hji] at hty
              exact a4 j (by omega) hty
      · next hh =>
        simp only [Res.ok.injEq, Prod.mk.injEq, true_and] at et
        subst et
        refine ⟨a1, a2, fun j hj hty => ?_⟩
        by_cases hji : j = i
        · rw [hji] at hty ⊢
          exact fun hin => hh ⟨hty, hin⟩
        · exact a4 j (by omega) hty)
    s.nC 0 s s' (by omega) ⟨h, Grown.refl s, fun j hj => by omega⟩ hc e
  exact ⟨h1, h2, h4⟩

theorem Proper.of_ne {st : SubjectToStatus} (h : Proper st) (hn : st ≠ ST_INACTIVE) : st = ST_LOWER ∨ st = ST_UPPER := by
  rcases h with h | h | h
  · exact absurd h hn
  · exact Or.inl h
  · exact Or.inr h

theorem auxAddB_loop {sq : K → K} {s s' : QPC K} (h : s.Base) (hf : s.options.enableFullLITests = false) {w : WS}
    (hw : ∀ i < s.nV, Proper (w.getStatus i)) (hc : SeqClean (AddBClean sq w) (auxAddB sq (some w) false) s.nV 0 s)
    (e : seqLoop (auxAddB sq (some w) false) s.nV 0 s = .ok (SUCCESSFUL_RETURN, s')) : s'.Base ∧ Grown s' s := by
  refine seqLoop_index (n := s.nV) (c := AddBClean sq w) (f := auxAddB sq (some w) false)
    (fun i t => t.Base ∧ Grown t s)
    (fun i t t' hi ⟨a1, a2⟩ hcl et => by
      unfold auxAddB at et
      have hit : i < t.nV := by rw [a2.nV]; exact hi
      have hlt : i < t.bounds.n := by rw [a1.shape.nB]; exact hit
      rw [WS.getStatus_of_lt hlt, show t.wantB (some w) i = w.getStatus i from rfl] at et
      split at et
      · next hh =>
        rw [Res.bind_eq_ok] at et
        obtain ⟨b, eb, et⟩ := et
        cases b with
        | true =>
          rw [if_pos rfl] at et
          obtain ⟨b1, b2, _⟩ := addBoundAs_spec a1 hit (Proper.of_ne (hw i hi) hh.2.2)
            (fun _ => nZ_of_check (by rw [a2.options]; exact hf) (Or.inl eb)) (fun hin => hcl hh.1 hin hh.2.2 eb) et
          exact ⟨b1, b2.trans a2⟩
        | false =>
          rw [if_neg (by decide)] at et
          simp only [Res.ok.injEq, Prod.mk.injEq, true_and] at et
          subst et
          exact ⟨a1, a2⟩
      · simp only [Res.ok.injEq, Prod.mk.injEq, true_and] at et
        subst et
        exact ⟨a1, a2⟩)
    s.nV 0 s s' (by omega) ⟨h, Grown.refl s⟩ hc e

theorem auxAddC_loop {sq : K → K} {s s' : QPC K} (h : s.Base) (hf : s.options.enableFullLITests = false) {w : WS}
    (hw : ∀ i < s.nC, Proper (w.getStatus i)) (hc : SeqClean (AddCClean sq w) (auxAddC sq (some w) false) s.nC 0 s)
    (e : seqLoop (auxAddC sq (some w) false) s.nC 0 s = .ok (SUCCESSFUL_RETURN, s')) : s'.Base ∧ Grown s' s := by
  refine seqLoop_index (n := s.nC) (c := AddCClean sq w) (f := auxAddC sq (some w) false)
    (fun i t => t.Base ∧ Grown t s)
    (fun i t t' hi ⟨a1, a2⟩ hcl et => by
      unfold auxAddC at et
      have hit : i < t.nC := by rw [a2.nC]; exact hi
      have hlt : i < t.cons.n := by rw [a1.shape.nC]; exact hit
      rw [WS.getStatus_of_lt hlt, show t.wantC (some w) i = w.getStatus i from rfl] at et
      split at et
      · next hh =>
        rw [Res.bind_eq_ok] at et
        obtain ⟨b, eb, et⟩ := et
        cases b with
        | true =>
          rw [if_pos rfl] at et
          obtain ⟨b1, b2, _⟩ := addConstraintAs_spec a1 hit (Proper.of_ne (hw i hi) hh.2.1)
            (fun _ => nZ_of_check (by rw [a2.options]; exact hf) (Or.inr eb)) (fun hin => hcl hh.1 hh.2.1 hin eb) et
          exact ⟨b1, b2.trans a2⟩
        | false =>
          rw [if_neg (by decide)] at et
          simp only [Res.ok.injEq, Prod.mk.injEq, true_and] at et
          subst et
          exact ⟨a1, a2⟩
      · simp only [Res.ok.injEq, Prod.mk.injEq, true_and] at et
        subst et
        exact ⟨a1, a2⟩)
    s.nC 0 s s' (by omega) ⟨h, Grown.refl s⟩ hc e

/-- What setting up the first working set achieves -/
structure FirstWS (s' s : QPC K) : Prop where
  base : s'.Base
  grown : Grown s' s
  eqB : ∀ i < s.nV, s'.bounds.type i = ST_EQUALITY → s'.bounds.status i ≠ ST_INACTIVE
  eqC : ∀ i < s.nC, s'.cons.type i = ST_EQUALITY → s'.cons.status i ≠ ST_INACTIVE

theorem auxLoops_spec {sq : K → K} {s s' : QPC K} (h : s.Base) (hac : s.nAC = 0) (hf : s.options.enableFullLITests = false) {auxB auxC : WS}
    (hB : ∀ i < s.nV, Proper (auxB.getStatus i)) (hC : ∀ i < s.nC, Proper (auxC.getStatus i)) (hc : LoopsClean sq s auxB auxC)
    (e : auxLoops sq s (some auxB) (some auxC) true = .ok (SUCCESSFUL_RETURN, s')) : FirstWS s' s := by
  unfold auxLoops at e
  dsimp only at e
  rw [if_pos rfl, Res.bind_ok] at e
  dsimp only at e
  rw [if_neg (by simp), Res.bind_eq_ok] at e
  obtain ⟨⟨r1, s1⟩, e1, e⟩ := e
  dsimp only at e
  split at e
  · next hr => simp only [Res.ok.injEq, Prod.mk.injEq] at e; exact absurd e.1 hr
  next hr =>
  rw [not_not] at hr
  subst hr
  rw [Res.bind_eq_ok] at e
  obtain ⟨⟨r2, s2⟩, e2, e⟩ := e
  dsimp only at e
  split at e
  · next hr => simp only [Res.ok.injEq, Prod.mk.injEq] at e; exact absurd e.1 hr
  next hr =>
  rw [not_not] at hr
  subst hr
  rw [Res.bind_eq_ok] at e
  obtain ⟨⟨r3, s3⟩, e3, e⟩ := e
  dsimp only at e
  split at e
  · next hr => simp only [Res.ok.injEq, Prod.mk.injEq] at e; exact absurd e.1 hr
  next hr =>
  rw [not_not] at hr
  subst hr
  obtain ⟨c1, hc⟩ := hc
  obtain ⟨c2, hc⟩ := hc s1 e1
  obtain ⟨c3, hc⟩ := hc s2 e2
  have c4 := hc s3 e3
  obtain ⟨a1, a2, a3⟩ := auxEqB_loop h hac c1 e1
  obtain ⟨b1, b2, b3⟩ := auxEqC_loop a1 (by rw [a2.options]; exact hf) c2 e2
  have g2 := b2.trans a2
  obtain ⟨d1, d2⟩ := auxAddB_loop b1 (by rw [g2.options]; exact hf) (by rw [g2.nV]; exact hB) c3 e3
  have g3 := d2.trans g2
  obtain ⟨f1, f2⟩ := auxAddC_loop d1 (by rw [g3.options]; exact hf) (by rw [g3.nC]; exact hC) c4 e
  have g4 := f2.trans g3
  refine ⟨f1, g4, fun i hi hty => ?_, fun i hi hty => ?_⟩
  · rw [g4.typeB] at hty
    have h1 := a3 i hi hty
    rw [((f2.trans d2).trans b2).keepB i h1]; exact h1
  · have hty2 : s2.cons.type i = ST_EQUALITY := by
      rcases (f2.trans d2).typeC i with h | ⟨_, h⟩
      · rw [← h]; exact hty
      · rw [h] at hty; cases hty
    have h1 := b3 i (by rw [a2.nC]; exact hi) hty2
    rw [(f2.trans d2).keepC i h1]; exact h1

theorem fixAll_loop {w : WS} : ∀ (m : Nat) (b : WS), b.OK → m ≤ b.n → (∀ i < m, w.getStatus i = ST_LOWER ∨ w.getStatus i = ST_UPPER) →
    let b' := loop (fun i b => if b.getStatus i = ST_INACTIVE then b.moveFreeToFixed i (w.getStatus i) else b) m b
    b'.OK ∧ b'.n = b.n ∧ b'.type = b.type ∧ b'.noLower = b.noLower ∧ b'.noUpper = b.noUpper ∧
      (∀ i < m, b'.status i ≠ ST_INACTIVE) ∧ (∀ i, b.status i ≠ ST_INACTIVE → b'.status i = b.status i) := by
  intro m
  induction m with
  | zero => intro b h _ _; exact ⟨h, rfl, rfl, rfl, rfl, fun i hi => absurd hi (by omega), fun _ _ => rfl⟩
  | succ m ih =>
    intro b h hm hw
    obtain ⟨h1, h2, h3, h4, h5, h6, h7⟩ := ih b h (by omega) (fun i hi => hw i (by omega))
    dsimp only at h1 h2 h3 h4 h5 h6 h7 ⊢
    rw [loop]
    generalize loop (fun i b => if b.getStatus i = ST_INACTIVE then b.moveFreeToFixed i (w.getStatus i) else b) m b = c at *
    have hlt : m < c.n := by omega
    rw [WS.getStatus_of_lt hlt]
    split
    · next hin =>
      have hm' : m ∈ c.free := h1.mem_free_iff.2 ⟨hlt, hin⟩
      refine ⟨h1.moveFreeToFixed hm' (hw m (by omega)), h2, h3, h4, h5, fun i hi => ?_, fun i hi => ?_⟩
      · show updA c.status m (w.getStatus m) i ≠ _
        by_cases him : i = m
        · subst him
          rw [updA_same]
          rcases hw i (by omega) with e | e <;> rw [e] <;> decide
        · rw [updA_ne _ _ him]; exact h6 i (by omega)
      · show updA c.status m (w.getStatus m) i = _
        have him : i ≠ m := by
          intro e
          have := h7 i hi
          rw [e] at this hi
          rw [hin] at this
          exact hi this.symm
        rw [updA_ne _ _ him]; exact h7 i hi
    · next hin =>
      refine ⟨h1, h2, h3, h4, h5, fun i hi => ?_, h7⟩
      by_cases him : i = m
      · subst him; exact hin
      · exact h6 i (by omega)

/-- The state with which the loops begin -/
def plainLI (s : QPC K) : QPC K := { s with options := { s.options with enableFullLITests := false } }

theorem setupAuxiliaryWorkingSet_spec {sq : K → K} {s s' : QPC K} (h : s.Base) (hac : s.nAC = 0) (hin : ∀ i < s.nC, s.cons.status i = ST_INACTIVE)
    {auxB auxC : WS} (hB : ∀ i < s.nV, Proper (auxB.getStatus i)) (hC : ∀ i < s.nC, Proper (auxC.getStatus i))
    (hc : s.isTrivial (some auxB) (some auxC) = false → LoopsClean sq s.plainLI auxB auxC)
    (e : setupAuxiliaryWorkingSet sq s (some auxB) (some auxC) true = .ok (SUCCESSFUL_RETURN, s')) : FirstWS s' s := by
  unfold setupAuxiliaryWorkingSet at e
  split at e
  · simp only [Res.ok.injEq, Prod.mk.injEq] at e; exact absurd e.1 (by decide)
  split at e
  · simp only [Res.ok.injEq, Prod.mk.injEq] at e; exact absurd e.1 (by decide)
  split at e
  · next ht =>
    simp only [Res.ok.injEq, Prod.mk.injEq, true_and] at e
    subst e
    unfold isTrivial at ht
    rw [Bool.and_eq_true, List.all_eq_true, List.all_eq_true] at ht
    obtain ⟨t1, t2⟩ := ht
    have hst : ∀ i < s.nV, auxB.getStatus i = ST_LOWER ∨ auxB.getStatus i = ST_UPPER := fun i hi => by
      have h1 := t1 i (List.mem_range.2 hi)
      exact Proper.of_ne (hB i hi) (show s.wantB (some auxB) i ≠ ST_INACTIVE by simpa using h1)
    obtain ⟨h1, h2, h3, h4, h5, h6, h7⟩ := fixAll_loop (w := auxB) s.nV s.bounds h.shape.okB (by rw [h.shape.nB]) hst
    unfold fixAll
    dsimp only at h1 h2 h3 h4 h5 h6 h7 ⊢
    generalize loop (fun i b => if b.getStatus i = ST_INACTIVE then b.moveFreeToFixed i (auxB.getStatus i) else b) s.nV s.bounds = w at *
    have hfree : w.free = [] := by
      rw [List.eq_nil_iff_forall_not_mem]
      intro i hi
      obtain ⟨a1, a2⟩ := h1.mem_free_iff.1 hi
      exact h6 i (by rw [← h.shape.nB, ← h2]; exact a1) a2
    refine ⟨⟨⟨h1, h.shape.okC, h2.trans h.shape.nB, h.shape.nC, h.shape.size⟩, ?_, h.sym⟩,
      ⟨⟨_, _, _, _, _, rfl⟩, h3, h4, h5, fun _ => Or.inl rfl, rfl, rfl, h7, fun _ _ => rfl, ?_, fun _ => Or.inl (congrArg List.length hfree)⟩, fun i hi _ => h6 i hi, fun i hi hty => ?_⟩
    · have hac' : ({ s with bounds := w } : QPC K).nAC = 0 := hac
      refine ⟨by rw [hac']; exact Nat.zero_le _, ?_⟩
      have hF : ({ s with bounds := w } : QPC K).F = ∅ := by
        show w.free.toFinset = ∅
        rw [hfree]; rfl
      rw [hF]
      refine ⟨fun i hi => absurd hi (Finset.notMem_empty i), fun k hk => ?_, fun k hk => ?_⟩ <;> (rw [hac'] at hk; omega)
    · have a1 := h.shape.okB.nFX_le
      have a2 : w.nFX = w.n := by
        have := h1.perm.length_eq
        rw [hfree, List.nil_append, List.length_range] at this
        exact this
      show s.bounds.nFX + s.nAC ≤ w.nFX + s.nAC
      omega
    · have h1 := t2 i (List.mem_range.2 hi)
      have hty : s.cons.type i = ST_EQUALITY := hty
      rw [hty] at h1
      simp at h1
  · next ht =>
    dsimp only at e
    rw [Res.bind_eq_ok] at e
    obtain ⟨⟨r, s1⟩, e1, e⟩ := e
    dsimp only at e
    split at e
    · simp only [Res.ok.injEq, Prod.mk.injEq] at e; exact absurd e.1 (by decide)
    next hr =>
    rw [not_not] at hr
    subst hr
    simp only [Res.ok.injEq, Prod.mk.injEq, true_and] at e
    subst e
    have hb : s.plainLI.Base := ⟨⟨h.shape.okB, h.shape.okC, h.shape.nB, h.shape.nC, h.shape.size⟩, ⟨h.tq.le, h.tq.tq⟩, h.sym⟩
    obtain ⟨k1, k2, k3, k4⟩ := auxLoops_spec (s := s.plainLI) hb hac rfl hB hC (hc (by simpa using ht)) e1
    obtain ⟨T, Q, R, wB, wC, ef⟩ := k2.frame
    refine ⟨⟨⟨k1.shape.okB, k1.shape.okC, k1.shape.nB, k1.shape.nC, k1.shape.size⟩, ⟨k1.tq.le, k1.tq.tq⟩, k1.sym⟩,
      ⟨⟨T, Q, R, wB, wC, by rw [ef]; rfl⟩, k2.typeB, k2.noLowerB, k2.noUpperB, k2.typeC, k2.noLowerC, k2.noUpperC, k2.keepB, k2.keepC, k2.mono, k2.plain⟩, k3, k4⟩

/-- With an empty working set `Q` starts as a permutation. -/
theorem setupTQfactorisation_base {s : QPC K} (hs : s.Shape) (hsym : s.SymH) (hac : s.nAC = 0) : s.setupTQfactorisation.Base := by
  refine ⟨⟨hs.okB, hs.okC, hs.nB, hs.nC, hs.size⟩, ?_, hsym⟩
  have hac' : s.setupTQfactorisation.nAC = 0 := hac
  refine ⟨by rw [hac']; exact Nat.zero_le _, ⟨?_, fun k hk => ?_, fun k hk => ?_⟩⟩
  · refine hs.orth_plain (Q := s.setupTQfactorisation.Q) fun j hj i _ => ?_
    show (if j < s.nFR ∧ i = s.fr j then (1:K) else 0) = _
    by_cases hh : i = s.fr j
    · rw [if_pos ⟨hj, hh⟩, if_pos hh]
    · rw [if_neg (fun h => hh h.2), if_neg hh]
  all_goals rw [hac'] at hk; omega

end QPC
end QpOASES
