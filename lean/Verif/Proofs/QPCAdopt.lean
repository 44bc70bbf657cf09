import Verif.Proofs.QPCInit
import Verif.Proofs.QPCOutcome
import Verif.Spec.Adoption

/-!
Adopting a guessed working set in the solver for general constraints: what the additions and removals do to the statuses, whatever the
factors contain.
-/
namespace QpOASES
open Finset Props SubjectToStatus SubjectToType ReturnValue HessianType QProblemStatus
open QPB (Proper)
open Spec (Stage DependentB DependentC LeftOutB LeftOutC Adopted Move Reached NullBasis)

set_option linter.unusedSectionVars false

variable {K : Type} [Field K] [LinearOrder K] [IsStrictOrderedRing K]

namespace QPC

/-- The two working sets are intact, no type has changed, and neither have problem and options. -/
structure Moved (s' s : QPC K) : Prop where
  shape : s'.Shape
  still : s'.still = s.still
  typeB : s'.bounds.type = s.bounds.type
  typeC : s'.cons.type = s.cons.type

theorem Moved.refl {s : QPC K} (h : s.Shape) : Moved s s := ⟨h, rfl, rfl, rfl⟩

theorem Moved.trans {a b c : QPC K} (h : Moved a b) (g : Moved b c) : Moved a c :=
  ⟨h.shape, h.still.trans g.still, h.typeB.trans g.typeB, h.typeC.trans g.typeC⟩

theorem still_nV {s' s : QPC K} (h : s'.still = s.still) : s'.nV = s.nV := congrArg (fun p => p.1.1.1) h
theorem still_nC {s' s : QPC K} (h : s'.still = s.still) : s'.nC = s.nC := congrArg (fun p => p.1.1.2.1) h
theorem still_sizeT {s' s : QPC K} (h : s'.still = s.still) : s'.sizeT = s.sizeT := congrArg (fun p => p.1.1.2.2.1) h
theorem still_A {s' s : QPC K} (h : s'.still = s.still) : s'.A = s.A := congrArg (fun p => p.1.1.2.2.2.2.1) h
theorem still_options {s' s : QPC K} (h : s'.still = s.still) :
    ({ s'.options with epsRegularisation := 0 } : Options K) = { s.options with epsRegularisation := 0 } :=
  congrArg (fun p => p.1.1.2.2.2.2.2.2.2.2.1) h

/-- Shape of an object with other working sets. -/
theorem Shape.of_ws {s s' : QPC K} (h : s.Shape) (e : s'.still = s.still) (okB : s'.bounds.OK) (okC : s'.cons.OK)
    (nB : s'.bounds.n = s.bounds.n) (nC : s'.cons.n = s.cons.n) : s'.Shape :=
  ⟨okB, okC, by rw [nB, h.nB, still_nV e], by rw [nC, h.nC, still_nC e], by rw [still_sizeT e, still_nV e, still_nC e]; exact h.size⟩

theorem addBoundUpdate_ws {sq : K → K} {s s' : QPC K} (hs : s.Shape) {i : Nat} (hm : i ∈ s.bounds.free) {st : SubjectToStatus}
    (hst : st = ST_LOWER ∨ st = ST_UPPER) {u : Bool} {r : ReturnValue} (h : addBoundUpdate sq s i st u = .ok (r, s')) :
    Moved s' s ∧ s'.bounds.status = updA s.bounds.status i st ∧ s'.cons = s.cons := by
  obtain ⟨b1, _, _, _, b5, b6, b7, b8, b9, _⟩ := swapped_spec hs hm
  have hst' := (addBoundUpdate_still h).1
  have key : s'.bounds = (s.swapped i).moveFreeToFixed i st ∧ s'.cons = s.cons := by
    unfold addBoundUpdate at h
    dsimp only at h
    unfold swapped
    split at h
    · cases h
    · by_cases hl : s.fr (s.nFR - 1) ≠ i
      · simp only [if_pos hl] at h ⊢
        split at h <;> split at h <;> cases h <;> exact ⟨rfl, rfl⟩
      · simp only [if_neg hl] at h ⊢
        split at h <;> split at h <;> cases h <;> exact ⟨rfl, rfl⟩
  obtain ⟨k1, k2⟩ := key
  refine ⟨⟨hs.of_ws hst' (by rw [k1]; exact b1.moveFreeToFixed b5 hst) (by rw [k2]; exact hs.okC) (by rw [k1]; exact b7) (by rw [k2]), hst', by rw [k1]; exact b9, by rw [k2]⟩,
    ?_, k2⟩
  rw [k1]
  show updA (s.swapped i).status i st = _
  rw [b8]

theorem addConstraintUpdate_ws {sq : K → K} {s s' : QPC K} (hs : s.Shape) {i : Nat} (hm : i ∈ s.cons.free) {st : SubjectToStatus}
    (hst : st = ST_LOWER ∨ st = ST_UPPER) {u : Bool} {r : ReturnValue} (h : addConstraintUpdate sq s i st u = .ok (r, s')) :
    Moved s' s ∧ s'.cons.status = updA s.cons.status i st ∧ s'.bounds = s.bounds := by
  have hst' := (addConstraintUpdate_still h).1
  have key : s'.cons = s.cons.moveFreeToFixed i st ∧ s'.bounds = s.bounds := by
    unfold addConstraintUpdate at h
    dsimp only at h
    split at h
    · cases h
    · split at h <;> cases h <;> exact ⟨rfl, rfl⟩
  obtain ⟨k1, k2⟩ := key
  exact ⟨⟨hs.of_ws hst' (by rw [k2]; exact hs.okB) (by rw [k1]; exact hs.okC.moveFreeToFixed hm hst) (by rw [k2]) (by rw [k1]; rfl), hst', by rw [k2], by rw [k1]; rfl⟩,
    by rw [k1]; rfl, k2⟩

theorem newDiag_plain {sq : K → K} {s : QPC K} {n : Nat} {v : K} :
    ∃ R, newDiag sq s n v false false = some (SUCCESSFUL_RETURN, { s with R := R }) := by
  unfold newDiag
  dsimp only
  rw [if_neg (fun h => by cases h.2.1), if_pos rfl]
  split
  · exact ⟨_, rfl⟩
  · rw [if_pos rfl]; exact ⟨_, rfl⟩

theorem removeBound_ws {sq : K → K} {s s' : QPC K} (hs : s.Shape) {i : Nat} (hm : i ∈ s.bounds.fixed)
    (h : removeBound sq s i true false false = .ok (SUCCESSFUL_RETURN, s')) :
    Moved s' s ∧ s'.bounds.status = updA s.bounds.status i ST_INACTIVE ∧ s'.cons = s.cons := by
  have hst' := removeBound_plain h
  have key : s'.bounds = s.bounds.moveFixedToFree i ∧ s'.cons = s.cons := by
    unfold removeBound at h
    split at h
    · cases h
    split at h
    · cases h
    rw [if_neg (by decide)] at h
    unfold removeBoundUpdate at h
    dsimp only at h
    generalize hs0 : (if s.options.enableFlippingBounds = true ∧ false = true ∧ (none : Option Change).isNone = true then s.saveFlip else s) = s0 at h
    rw [if_neg (by simp)] at hs0
    subst hs0
    split at h
    · obtain ⟨a, e, h⟩ := Res.bind_eq_ok.1 h
      cases a with
      | none => cases h
      | some p =>
        dsimp only at h
        split at h
        · next hd =>
          obtain ⟨R, er⟩ := newDiag_plain (sq := sq) (s := _) (n := _) (v := p.2)
          exact absurd (er.symm.trans hd) (by simp)
        · next r1 s1 hd =>
          obtain ⟨R, er⟩ := newDiag_plain (sq := sq) (s := _) (n := _) (v := p.2)
          have hd := Option.some.inj (er.symm.trans hd)
          cases hd
          rw [if_neg (by simp)] at h
          cases h
          exact ⟨rfl, rfl⟩
    · cases h; exact ⟨rfl, rfl⟩
  obtain ⟨k1, k2⟩ := key
  exact ⟨⟨hs.of_ws hst' (by rw [k1]; exact hs.okB.moveFixedToFree hm) (by rw [k2]; exact hs.okC) (by rw [k1]; rfl) (by rw [k2]), hst', by rw [k1]; rfl, by rw [k2]⟩,
    by rw [k1]; rfl, k2⟩

theorem removeConstraint_ws {sq : K → K} {s s' : QPC K} (hs : s.Shape) {i : Nat} (hm : i ∈ s.cons.fixed)
    (h : removeConstraint sq s i true false false = .ok (SUCCESSFUL_RETURN, s')) :
    Moved s' s ∧ s'.cons.status = updA s.cons.status i ST_INACTIVE ∧ s'.bounds = s.bounds := by
  have hst' := removeConstraint_plain h
  have key : s'.cons = s.cons.moveFixedToFree i ∧ s'.bounds = s.bounds := by
    unfold removeConstraint at h
    split at h
    · cases h
    split at h
    · cases h
    split at h
    · cases h
    rw [if_neg (by decide)] at h
    unfold removeConstraintUpdate at h
    dsimp only at h
    generalize hs0 : (if (none : Option Change).isNone = true ∧ s.options.enableFlippingBounds = true ∧ false = true then s.saveFlip else s) = s0 at h
    rw [if_neg (by simp)] at hs0
    subst hs0
    split at h
    · obtain ⟨a, e, h⟩ := Res.bind_eq_ok.1 h
      cases a with
      | none => cases h
      | some p =>
        dsimp only at h
        split at h
        · next hd =>
          obtain ⟨R, er⟩ := newDiag_plain (sq := sq) (s := _) (n := _) (v := p.2)
          exact absurd (er.symm.trans hd) (by simp)
        · next r1 s1 hd =>
          obtain ⟨R, er⟩ := newDiag_plain (sq := sq) (s := _) (n := _) (v := p.2)
          have hd := Option.some.inj (er.symm.trans hd)
          cases hd
          rw [if_neg (by simp)] at h
          cases h
          exact ⟨rfl, rfl⟩
    · cases h; exact ⟨rfl, rfl⟩
  obtain ⟨k1, k2⟩ := key
  exact ⟨⟨hs.of_ws hst' (by rw [k2]; exact hs.okB) (by rw [k1]; exact hs.okC.moveFixedToFree hm) (by rw [k2]) (by rw [k1]; rfl), hst', by rw [k2], by rw [k1]; rfl⟩,
    by rw [k1]; rfl, k2⟩

theorem ratioTest_mem {w : WS} {num den : Nat → K} {en ed : K} : ∀ {idx : List Nat} {i : Nat} {t t' : K} {bc bc' : Option Nat},
    QPB.ratioTest w num den en ed idx i t bc = .ok (t', bc') → bc' = bc ∨ ∃ k ∈ idx, bc' = some k ∧ w.type k ≠ ST_EQUALITY := by
  intro idx
  induction idx with
  | nil => intro i t t' bc bc' h; cases h; exact Or.inl rfl
  | cons ii idx ih =>
    intro i t t' bc bc' h
    rw [QPB.ratioTest] at h
    by_cases ht : w.type ii ≠ ST_EQUALITY
    · have key : ∀ b : Bool, (if b = true then (cdiv (num i) (den i) >>= fun q => QPB.ratioTest w num den en ed idx (i+1) q (some ii))
          else QPB.ratioTest w num den en ed idx (i+1) t bc) = .ok (t', bc') →
          bc' = bc ∨ ∃ k ∈ ii :: idx, bc' = some k ∧ w.type k ≠ ST_EQUALITY := by
        intro b h
        cases b with
        | true =>
          rw [if_pos rfl] at h
          obtain ⟨q, _, h⟩ := Res.bind_eq_ok.1 h
          rcases ih h with h | ⟨k, hk, h⟩
          · exact Or.inr ⟨ii, List.mem_cons_self, h, ht⟩
          · exact Or.inr ⟨k, List.mem_cons_of_mem _ hk, h⟩
        | false =>
          rw [if_neg (by decide)] at h
          rcases ih h with h | ⟨k, hk, h⟩
          · exact Or.inl h
          · exact Or.inr ⟨k, List.mem_cons_of_mem _ hk, h⟩
      exact key _ h
    · rw [if_neg ht, if_neg (by decide)] at h
      rcases ih h with h | ⟨k, hk, h⟩
      · exact Or.inl h
      · exact Or.inr ⟨k, List.mem_cons_of_mem _ hk, h⟩

/-- No member has become active or changed sides, and no equality has become inactive. -/
structure Fewer (s' s : QPC K) : Prop where
  moved : Moved s' s
  statusB : ∀ j, s'.bounds.status j = s.bounds.status j ∨ s'.bounds.status j = ST_INACTIVE ∧ s.bounds.type j ≠ ST_EQUALITY
  statusC : ∀ j, s'.cons.status j = s.cons.status j ∨ s'.cons.status j = ST_INACTIVE ∧ s.cons.type j ≠ ST_EQUALITY

theorem updA_or {f : Nat → SubjectToStatus} {t : Nat → SubjectToType} {i j : Nat} (ht : t i ≠ ST_EQUALITY) :
    updA f i ST_INACTIVE j = f j ∨ updA f i ST_INACTIVE j = ST_INACTIVE ∧ t j ≠ ST_EQUALITY := by
  by_cases h : j = i
  · rw [h, updA_same]; exact Or.inr ⟨rfl, ht⟩
  · rw [updA_ne _ _ h]; exact Or.inl rfl

theorem resolveLI_ws {sq : K → K} {s s' : QPC K} (hs : s.Shape) (hd : s.options.enableDropInfeasibles = false) {i : Nat} {st : SubjectToStatus}
    {b : Bool} {xiC xiB : Nat → K} (h : resolveLI sq s i st b xiC xiB = .ok (SUCCESSFUL_RETURN, s')) : Fewer s' s := by
  unfold resolveLI at h
  dsimp only at h
  obtain ⟨⟨t, bc⟩, e1, h⟩ := Res.bind_eq_ok.1 h
  obtain ⟨⟨t', bb⟩, e2, h⟩ := Res.bind_eq_ok.1 h
  dsimp only at h
  split at h
  · rw [hd, if_neg (by decide)] at h
    cases h
  · have hb := ratioTest_mem e2
    have hc := ratioTest_mem e1
    cases bb with
    | some k =>
      obtain ⟨⟨r1, s1⟩, e, h⟩ := Res.bind_eq_ok.1 h
      dsimp only at h
      split at h
      · cases h
      next hr =>
      rw [not_not] at hr
      subst hr
      cases h
      have hk : k ∈ s.bounds.fixed ∧ s.bounds.type k ≠ ST_EQUALITY := by
        rcases hb with h | ⟨k', hk, h, ht⟩
        · cases h
        · cases h; exact ⟨hk, ht⟩
      have key := fun a b => removeBound_ws (hs := a) (hm := b) e
      obtain ⟨m, a1, a2⟩ := key ⟨hs.okB, hs.okC, hs.nB, hs.nC, hs.size⟩ hk.1
      refine ⟨⟨⟨m.shape.okB, m.shape.okC, m.shape.nB, m.shape.nC, m.shape.size⟩, m.still, m.typeB, m.typeC⟩, fun j => ?_, fun j => Or.inl ?_⟩
      · show s1.bounds.status j = _ ∨ s1.bounds.status j = _ ∧ _
        rw [a1]; exact updA_or hk.2
      · show s1.cons.status j = _
        rw [a2]
    | none =>
      cases bc with
      | some k =>
        obtain ⟨⟨r1, s1⟩, e, h⟩ := Res.bind_eq_ok.1 h
        dsimp only at h
        split at h
        · cases h
        next hr =>
        rw [not_not] at hr
        subst hr
        cases h
        have hk : k ∈ s.cons.fixed ∧ s.cons.type k ≠ ST_EQUALITY := by
          rcases hc with h | ⟨k', hk, h, ht⟩
          · cases h
          · cases h; exact ⟨hk, ht⟩
        have key := fun a b => removeConstraint_ws (hs := a) (hm := b) e
        obtain ⟨m, a1, a2⟩ := key ⟨hs.okB, hs.okC, hs.nB, hs.nC, hs.size⟩ hk.1
        refine ⟨⟨⟨m.shape.okB, m.shape.okC, m.shape.nB, m.shape.nC, m.shape.size⟩, m.still, m.typeB, m.typeC⟩, fun j => Or.inl ?_, fun j => ?_⟩
        · show s1.bounds.status j = _
          rw [a2]
        · show s1.cons.status j = _ ∨ s1.cons.status j = _ ∧ _
          rw [a1]; exact updA_or hk.2
      | none =>
        cases h
        exact ⟨⟨⟨hs.okB, hs.okC, hs.nB, hs.nC, hs.size⟩, rfl, rfl, rfl⟩, fun _ => Or.inl rfl, fun _ => Or.inl rfl⟩

/-- Nothing is dropped unless the option says so. -/
theorem resolveLI_not_dropped {sq : K → K} {s s' : QPC K} (hd : s.options.enableDropInfeasibles = false) {i : Nat} {st : SubjectToStatus}
    {b : Bool} {xiC xiB : Nat → K} (h : resolveLI sq s i st b xiC xiB = .ok (RET_ENSURELI_DROPPED, s')) : False := by
  unfold resolveLI at h
  dsimp only at h
  obtain ⟨⟨t, bc⟩, e1, h⟩ := Res.bind_eq_ok.1 h
  obtain ⟨⟨t', bb⟩, e2, h⟩ := Res.bind_eq_ok.1 h
  dsimp only at h
  split at h
  · rw [hd, if_neg (by decide)] at h
    cases h
  · cases bb with
    | some k =>
      obtain ⟨⟨r1, s1⟩, e, h⟩ := Res.bind_eq_ok.1 h
      dsimp only at h
      split at h <;> cases h
    | none =>
      cases bc with
      | some k =>
        obtain ⟨⟨r1, s1⟩, e, h⟩ := Res.bind_eq_ok.1 h
        dsimp only at h
        split at h <;> cases h
      | none => cases h

/-! ### Additions -/

theorem free_of_checkB {s : QPC K} (hs : s.Shape) {i : Nat} (hi : i < s.nV) (h : s.addBoundCheck i = none) : i ∈ s.bounds.free := by
  unfold addBoundCheck at h
  split at h
  · cases h
  · next hb =>
    rw [not_not, WS.getStatus_of_lt (by rw [hs.nB]; exact hi)] at hb
    exact hs.okB.mem_free_iff.2 ⟨by rw [hs.nB]; exact hi, hb⟩

theorem free_of_checkC {s : QPC K} (hs : s.Shape) {i : Nat} (hi : i < s.nC) (h : s.addConstraintCheck i = none) : i ∈ s.cons.free := by
  unfold addConstraintCheck at h
  split at h
  · cases h
  · next hb =>
    rw [not_not, WS.getStatus_of_lt (by rw [hs.nC]; exact hi)] at hb
    exact hs.okC.mem_free_iff.2 ⟨by rw [hs.nC]; exact hi, hb⟩

theorem addBoundCheck_ne {s : QPC K} {i : Nat} {r : ReturnValue} (h : s.addBoundCheck i = some r) : r ≠ SUCCESSFUL_RETURN := by
  unfold addBoundCheck at h
  split at h
  · cases h; decide
  split at h
  · cases h; decide
  split at h
  · cases h; decide
  · cases h

theorem addConstraintCheck_ne {s : QPC K} {i : Nat} {r : ReturnValue} (h : s.addConstraintCheck i = some r) : r ≠ SUCCESSFUL_RETURN := by
  unfold addConstraintCheck at h
  split at h
  · cases h; decide
  split at h
  · cases h; decide
  split at h
  · cases h; decide
  · cases h

/-- A bound that has passed the test for linear dependence is added, and nothing else changes. -/
theorem addBoundAs_exact {sq : K → K} {s s' : QPC K} (hs : s.Shape) {i : Nat} (hi : i < s.nV) {st : SubjectToStatus}
    (hst : st = ST_LOWER ∨ st = ST_UPPER) {upd : Bool} (hc : upd = true → s.checkLIBound i = .ok true)
    (h : addBoundAs sq s i st upd = .ok (SUCCESSFUL_RETURN, s')) :
    Moved s' s ∧ s'.bounds.status = updA s.bounds.status i st ∧ s'.cons = s.cons := by
  unfold addBoundAs at h
  split at h
  · next hu =>
    unfold addBound at h
    split at h
    · next hk => cases h; exact absurd rfl (addBoundCheck_ne hk)
    · next hk =>
      unfold ensureLIBound at h
      rw [hc hu, Res.bind_ok, if_pos rfl, Res.bind_ok] at h
      dsimp only at h
      rw [if_pos rfl] at h
      exact addBoundUpdate_ws hs (free_of_checkB hs hi hk) hst h
  · unfold addBoundPlain at h
    split at h
    · next hk => cases h; exact absurd rfl (addBoundCheck_ne hk)
    · next hk => exact addBoundUpdate_ws hs (free_of_checkB hs hi hk) hst h

/-- The same for a constraint. -/
theorem addConstraintAs_exact {sq : K → K} {s s' : QPC K} (hs : s.Shape) {i : Nat} (hi : i < s.nC) {st : SubjectToStatus}
    (hst : st = ST_LOWER ∨ st = ST_UPPER) {upd : Bool} (hc : upd = true → s.checkLIConstraint i = .ok true)
    (h : addConstraintAs sq s i st upd = .ok (SUCCESSFUL_RETURN, s')) :
    Moved s' s ∧ s'.cons.status = updA s.cons.status i st ∧ s'.bounds = s.bounds := by
  unfold addConstraintAs at h
  split at h
  · next hu =>
    unfold addConstraint at h
    split at h
    · next hk => cases h; exact absurd rfl (addConstraintCheck_ne hk)
    · next hk =>
      unfold ensureLIConstraint at h
      rw [hc hu, Res.bind_ok, if_pos rfl, Res.bind_ok] at h
      dsimp only at h
      rw [if_pos rfl] at h
      exact addConstraintUpdate_ws hs (free_of_checkC hs hi hk) hst h
  · unfold addConstraintPlain at h
    split at h
    · next hk => cases h; exact absurd rfl (addConstraintCheck_ne hk)
    · next hk => exact addConstraintUpdate_ws hs (free_of_checkC hs hi hk) hst h

/-- A bound is added, perhaps in exchange for a member that is not an equality. -/
theorem addBoundAs_weak {sq : K → K} {s s' : QPC K} (hs : s.Shape) {i : Nat} (hi : i < s.nV) {st : SubjectToStatus}
    (hst : st = ST_LOWER ∨ st = ST_UPPER) {upd : Bool} (hd : upd = true → s.options.enableDropInfeasibles = false)
    (h : addBoundAs sq s i st upd = .ok (SUCCESSFUL_RETURN, s')) :
    ∃ t, Fewer t s ∧ Moved s' t ∧ s'.bounds.status = updA t.bounds.status i st ∧ s'.cons = t.cons := by
  unfold addBoundAs at h
  split at h
  · next hu =>
    unfold addBound at h
    split at h
    · next hk => cases h; exact absurd rfl (addBoundCheck_ne hk)
    · next hk =>
      obtain ⟨⟨r, t⟩, e, h⟩ := Res.bind_eq_ok.1 h
      dsimp only at h
      split at h
      · next hr =>
        subst hr
        have hf : Fewer t s := by
          unfold ensureLIBound at e
          obtain ⟨c, _, e⟩ := Res.bind_eq_ok.1 e
          cases c with
          | true =>
            rw [if_pos rfl] at e
            cases e
            exact ⟨Moved.refl hs, fun _ => Or.inl rfl, fun _ => Or.inl rfl⟩
          | false =>
            rw [if_neg (by decide)] at e
            dsimp only at e
            split at e
            · cases e
            · exact resolveLI_ws hs (hd hu) e
        have hm : i ∈ t.bounds.free := by
          have hf0 := hs.okB.mem_free_iff.1 (free_of_checkB hs hi hk)
          refine hf.moved.shape.okB.mem_free_iff.2 ⟨?_, ?_⟩
          · rw [hf.moved.shape.nB, still_nV hf.moved.still]; exact hi
          · rcases hf.statusB i with h | h
            · rw [h]; exact hf0.2
            · exact h.1
        exact ⟨t, hf, addBoundUpdate_ws hf.moved.shape hm hst h⟩
      · split at h
        · cases h
        split at h
        · next hn =>
          exfalso
          subst hn
          unfold ensureLIBound at e
          obtain ⟨c, _, e⟩ := Res.bind_eq_ok.1 e
          cases c with
          | true => rw [if_pos rfl] at e; cases e
          | false =>
            rw [if_neg (by decide)] at e
            dsimp only at e
            split at e
            · cases e
            · exact resolveLI_not_dropped (hd hu) e
        · cases h
  · unfold addBoundPlain at h
    split at h
    · next hk => cases h; exact absurd rfl (addBoundCheck_ne hk)
    · next hk => exact ⟨s, ⟨Moved.refl hs, fun _ => Or.inl rfl, fun _ => Or.inl rfl⟩, addBoundUpdate_ws hs (free_of_checkB hs hi hk) hst h⟩

/-! ### The loops -/

theorem seqLoop_inv {f : Nat → QPC K → Res (ReturnValue × QPC K)} {N : Nat} {P : Nat → QPC K → Prop}
    (step : ∀ i < N, ∀ s s', P i s → f i s = .ok (SUCCESSFUL_RETURN, s') → P (i+1) s') :
    ∀ (m i : Nat) (s s' : QPC K), i + m = N → P i s → seqLoop f m i s = .ok (SUCCESSFUL_RETURN, s') → P N s' := by
  intro m
  induction m with
  | zero => intro i s s' hN hp h; cases h; rw [← hN]; exact hp
  | succ m ih =>
    intro i s s' hN hp h
    rw [seqLoop] at h
    obtain ⟨⟨r, s1⟩, e, h⟩ := Res.bind_eq_ok.1 h
    dsimp only at h
    split at h
    · cases h; exact absurd rfl ‹_›
    · next hr =>
      rw [not_not] at hr
      subst hr
      exact ih (i+1) s1 s' (by omega) (step i (by omega) s s1 hp e) h

theorem _root_.QpOASES.Spec.Stage.refl (s : QPC K) : Stage s s := ⟨fun _ _ => rfl, fun _ _ => rfl, rfl, rfl⟩

theorem _root_.QpOASES.Spec.Stage.trans {a b c : QPC K} (h : Stage a b) (g : Stage b c) : Stage a c :=
  ⟨fun j hj => by rw [g.keptB j (by rw [h.keptB j hj]; exact hj), h.keptB j hj],
   fun j hj => by rw [g.keptC j (by rw [h.keptC j hj]; exact hj), h.keptC j hj], h.A.trans g.A, h.eps.trans g.eps⟩

theorem LeftOutB.mono {sq : K → K} {upd : Bool} {s0 s s' : QPC K} (h : Stage s s') {i : Nat} (l : LeftOutB sq upd s0 s i) :
    LeftOutB sq upd s0 s' i := by
  obtain ⟨l, t, v, a, b⟩ := l
  exact ⟨l, t, v, a.trans h, b⟩

theorem LeftOutC.mono {sq : K → K} {upd : Bool} {s0 s s' : QPC K} (h : Stage s s') {i : Nat} (l : LeftOutC sq upd s0 s i) :
    LeftOutC sq upd s0 s' i := by
  obtain ⟨l, t, v, a, b⟩ := l
  exact ⟨l, t, v, a.trans h, b⟩

theorem dependentB_of_check {s : QPC K} (hf : s.options.enableFullLITests = false) {i : Nat} (h : s.checkLIBound i = .ok false) :
    DependentB s i := by
  unfold checkLIBound at h
  rw [if_neg (by rw [hf]; decide)] at h
  intro j hj
  have h := List.any_eq_false.1 (Res.ok.inj h) j (List.mem_range.2 hj)
  simpa [getAbs] using h

theorem dependentC_of_check {s : QPC K} (hf : s.options.enableFullLITests = false) {i : Nat} (h : s.checkLIConstraint i = .ok false) :
    DependentC s i := by
  unfold checkLIConstraint at h
  rw [if_neg (by rw [hf]; decide)] at h
  intro j hj
  have h := List.any_eq_false.1 (Res.ok.inj h) j (List.mem_range.2 hj)
  rw [sumTo_eq, sumTo_eq] at h
  simpa [getAbs] using h

theorem still_eps {s' s : QPC K} (h : s'.still = s.still) : s'.options.epsLITests = s.options.epsLITests :=
  congrArg (fun o => o.epsLITests) (still_options h)
theorem still_full {s' s : QPC K} (h : s'.still = s.still) : s'.options.enableFullLITests = s.options.enableFullLITests :=
  congrArg (fun o => o.enableFullLITests) (still_options h)
theorem still_drop {s' s : QPC K} (h : s'.still = s.still) : s'.options.enableDropInfeasibles = s.options.enableDropInfeasibles :=
  congrArg (fun o => o.enableDropInfeasibles) (still_options h)
theorem still_nzc {s' s : QPC K} (h : s'.still = s.still) : s'.options.enableNZCTests = s.options.enableNZCTests :=
  congrArg (fun o => o.enableNZCTests) (still_options h)

/-- Adding a bound that was inactive leaves the others as they are. -/
theorem _root_.QpOASES.Spec.Stage.addB {s s' : QPC K} {i : Nat} {st : SubjectToStatus} (hin : s.bounds.status i = ST_INACTIVE) (hm : Moved s' s)
    (hb : s'.bounds.status = updA s.bounds.status i st) (hc : s'.cons = s.cons) : Stage s s' := by
  refine ⟨fun j hj => ?_, fun j _ => by rw [hc], (still_A hm.still).symm, (still_eps hm.still).symm⟩
  rw [hb, updA_ne]
  intro e; rw [e] at hj; exact hj hin

theorem _root_.QpOASES.Spec.Stage.addC {s s' : QPC K} {i : Nat} {st : SubjectToStatus} (hin : s.cons.status i = ST_INACTIVE) (hm : Moved s' s)
    (hb : s'.cons.status = updA s.cons.status i st) (hc : s'.bounds = s.bounds) : Stage s s' := by
  refine ⟨fun j _ => by rw [hc], fun j hj => ?_, (still_A hm.still).symm, (still_eps hm.still).symm⟩
  rw [hb, updA_ne]
  intro e; rw [e] at hj; exact hj hin

/-- The solver can come from `s0` to `s` by changes of the working set. -/
def Via (sq : K → K) (upd : Bool) (s0 s : QPC K) : Prop := ∃ l, Reached sq upd s0 l s

theorem Via.step {sq : K → K} {upd : Bool} {s0 s s' : QPC K} (h : Via sq upd s0 s) (m : Move) (hv : m.Valid upd s)
    (e : m.run sq upd s = .ok (SUCCESSFUL_RETURN, s')) : Via sq upd s0 s' := by
  obtain ⟨l, h⟩ := h
  exact ⟨_, h.step hv e⟩

/-- Every active member has been guessed or is an equality at the beginning. -/
structure Only (s0 s : QPC K) (wB wC : WS) : Prop where
  shape : s.Shape
  still : s.still = s0.still
  typeB : s.bounds.type = s0.bounds.type
  typeC : ∀ j, s.cons.type j = ST_EQUALITY → s0.cons.type j = ST_EQUALITY
  onlyB : ∀ j < s0.nV, s.bounds.status j ≠ ST_INACTIVE → s.bounds.status j = wB.getStatus j ∨ s0.bounds.type j = ST_EQUALITY
  onlyC : ∀ j < s0.nC, s.cons.status j ≠ ST_INACTIVE → s.cons.status j = wC.getStatus j ∨ s0.cons.type j = ST_EQUALITY

theorem Only.nV {s0 s : QPC K} {wB wC : WS} (h : Only s0 s wB wC) : s.nV = s0.nV := still_nV h.still
theorem Only.nC {s0 s : QPC K} {wB wC : WS} (h : Only s0 s wB wC) : s.nC = s0.nC := still_nC h.still

theorem Only.statusB {s0 s : QPC K} {wB wC : WS} (h : Only s0 s wB wC) {i : Nat} (hi : i < s0.nV) :
    s.bounds.getStatus i = s.bounds.status i := WS.getStatus_of_lt (by rw [h.shape.nB, h.nV]; exact hi)
theorem Only.statusC {s0 s : QPC K} {wB wC : WS} (h : Only s0 s wB wC) {i : Nat} (hi : i < s0.nC) :
    s.cons.getStatus i = s.cons.status i := WS.getStatus_of_lt (by rw [h.shape.nC, h.nC]; exact hi)

theorem Only.addB {s0 s s' : QPC K} {wB wC : WS} (h : Only s0 s wB wC) {i : Nat} {st : SubjectToStatus}
    (hst : st = wB.getStatus i ∨ s0.bounds.type i = ST_EQUALITY) (hm : Moved s' s)
    (hb : s'.bounds.status = updA s.bounds.status i st) (hc : s'.cons = s.cons) : Only s0 s' wB wC := by
  refine ⟨hm.shape, hm.still.trans h.still, hm.typeB.trans h.typeB, fun j hj => h.typeC j (by rw [← hm.typeC]; exact hj), fun j hj ha => ?_,
    by rw [hc]; exact h.onlyC⟩
  by_cases e : j = i
  · rw [hb, e, updA_same]; exact hst
  · rw [hb, updA_ne _ _ e] at ha ⊢; exact h.onlyB j hj ha

theorem Only.addC {s0 s s' : QPC K} {wB wC : WS} (h : Only s0 s wB wC) {i : Nat} {st : SubjectToStatus}
    (hst : st = wC.getStatus i ∨ s0.cons.type i = ST_EQUALITY) (hm : Moved s' s)
    (hb : s'.cons.status = updA s.cons.status i st) (hc : s'.bounds = s.bounds) : Only s0 s' wB wC := by
  refine ⟨hm.shape, hm.still.trans h.still, hm.typeB.trans h.typeB, fun j hj => h.typeC j (by rw [← hm.typeC]; exact hj),
    by rw [hc]; exact h.onlyB, fun j hj ha => ?_⟩
  by_cases e : j = i
  · rw [hb, e, updA_same]; exact hst
  · rw [hb, updA_ne _ _ e] at ha ⊢; exact h.onlyC j hj ha

theorem Only.fewer {s0 s s' : QPC K} {wB wC : WS} (h : Only s0 s wB wC) (f : Fewer s' s) : Only s0 s' wB wC := by
  refine ⟨f.moved.shape, f.moved.still.trans h.still, f.moved.typeB.trans h.typeB, fun j hj => h.typeC j (by rw [← f.moved.typeC]; exact hj),
    fun j hj ha => ?_, fun j hj ha => ?_⟩
  · rcases f.statusB j with e | e
    · rw [e] at ha ⊢; exact h.onlyB j hj ha
    · exact absurd e.1 ha
  · rcases f.statusC j with e | e
    · rw [e] at ha ⊢; exact h.onlyC j hj ha
    · exact absurd e.1 ha

/-- The equality bounds are added; they may replace members that are not equalities. -/
theorem adoptEqB {sq : K → K} {s0 s s' : QPC K} {wB wC : WS} {upd : Bool} (hd : upd = true → s0.options.enableDropInfeasibles = false)
    (h : Only s0 s wB wC) (hv : Via sq upd s0 s) (e : seqLoop (auxEqB sq upd) s.nV 0 s = .ok (SUCCESSFUL_RETURN, s')) :
    Only s0 s' wB wC ∧ Via sq upd s0 s' ∧ ∀ j < s0.nV, s0.bounds.type j = ST_EQUALITY → s'.bounds.status j ≠ ST_INACTIVE := by
  refine seqLoop_inv (P := fun i s => Only s0 s wB wC ∧ Via sq upd s0 s ∧ ∀ j < i, s0.bounds.type j = ST_EQUALITY → s.bounds.status j ≠ ST_INACTIVE)
    (N := s0.nV) ?_ s.nV 0 s s' (by rw [h.nV]; omega) ⟨h, hv, fun j hj => absurd hj (by omega)⟩ e
  intro i hi s s' ⟨h, hv, h2⟩ e
  unfold auxEqB at e
  rw [h.statusB hi, h.typeB] at e
  split at e
  · next hc =>
    obtain ⟨t, f, m, a1, a2⟩ := addBoundAs_weak h.shape (by rw [h.nV]; exact hi) (Or.inl rfl) (fun hu => (still_drop h.still).trans (hd hu)) e
    refine ⟨(h.fewer f).addB (Or.inr hc.1) m a1 a2, hv.step (.fix i ST_LOWER) ⟨by rw [h.nV]; exact hi, Or.inl rfl⟩ e, fun j hj ht => ?_⟩
    by_cases ej : j = i
    · rw [a1, ej, updA_same]; decide
    · rw [a1, updA_ne _ _ ej]
      rcases f.statusB j with e | e
      · rw [e]; exact h2 j (by omega) ht
      · exact absurd ht (by rw [← h.typeB]; exact e.2)
  · next hc =>
    cases e
    refine ⟨h, hv, fun j hj ht => ?_⟩
    by_cases ej : j = i
    · intro hs; exact hc ⟨ej ▸ ht, ej ▸ hs⟩
    · exact h2 j (by omega) ht

/-- The equality constraints are added unless they are linearly dependent. -/
theorem adoptEqC {sq : K → K} {s0 s s' : QPC K} {wB wC : WS} {upd : Bool} (hf : s0.options.enableFullLITests = false)
    (h : Only s0 s wB wC) (hv : Via sq upd s0 s) (hB : ∀ j < s0.nV, s0.bounds.type j = ST_EQUALITY → s.bounds.status j ≠ ST_INACTIVE)
    (ht : s.cons.type = s0.cons.type)
    (e : seqLoop (auxEqC sq upd) s.nC 0 s = .ok (SUCCESSFUL_RETURN, s')) :
    Only s0 s' wB wC ∧ Via sq upd s0 s' ∧ Stage s s' ∧
      ∀ j < s0.nC, s0.cons.type j = ST_EQUALITY → s'.cons.status j ≠ ST_INACTIVE ∨ LeftOutC sq upd s0 s' j := by
  have key := seqLoop_inv (f := auxEqC sq upd) (P := fun i t => Only s0 t wB wC ∧ Via sq upd s0 t ∧ Stage s t ∧ (∀ j, i ≤ j → t.cons.type j = s0.cons.type j) ∧
      ∀ j < i, s0.cons.type j = ST_EQUALITY → t.cons.status j ≠ ST_INACTIVE ∨ LeftOutC sq upd s0 t j)
    (N := s0.nC) ?_ s.nC 0 s s' (by rw [h.nC]; omega)
    ⟨h, hv, Stage.refl s, fun j _ => by rw [ht], fun j hj => absurd hj (by omega)⟩ e
  · exact ⟨key.1, key.2.1, key.2.2.1, key.2.2.2.2⟩
  intro i hi t t' ⟨h, hv, hs, ht, h2⟩ e
  unfold auxEqC at e
  rw [h.statusC hi, ht i le_rfl] at e
  split at e
  · next hc =>
    obtain ⟨c, ec, e⟩ := Res.bind_eq_ok.1 e
    cases c with
    | true =>
      rw [if_pos rfl] at e
      obtain ⟨m, a1, a2⟩ := addConstraintAs_exact h.shape (by rw [h.nC]; exact hi) (Or.inl rfl) (fun _ => ec) e
      have st := Stage.addC hc.2 m a1 a2
      refine ⟨h.addC (Or.inr hc.1) m a1 a2, hv.step (.activate i ST_LOWER) ⟨by rw [h.nC]; exact hi, Or.inl rfl⟩ e, hs.trans st, fun j hj => by rw [m.typeC]; exact ht j (by omega), fun j hj hq => ?_⟩
      by_cases ej : j = i
      · left; rw [a1, ej, updA_same]; decide
      · rcases h2 j (by omega) hq with h | h
        · left; rw [st.keptC j h]; exact h
        · right; exact LeftOutC.mono st h
    | false =>
      rw [if_neg (by decide)] at e
      cases e
      have st : Stage t { t with cons := { t.cons with type := updA t.cons.type i ST_BOUNDED } } := ⟨fun _ _ => rfl, fun _ _ => rfl, rfl, rfl⟩
      refine ⟨⟨⟨h.shape.okB, ⟨h.shape.okC.perm, h.shape.okC.free, h.shape.okC.fixed⟩, h.shape.nB, h.shape.nC, h.shape.size⟩, h.still, h.typeB, ?_, h.onlyB, h.onlyC⟩,
        hv.step (.relax i) (by show i < t.nC; rw [h.nC]; exact hi) rfl, hs.trans st, fun j hj => ?_, fun j hj hq => ?_⟩
      · intro j hj
        by_cases ej : j = i
        · rw [ej]; exact hc.1
        · exact h.typeC j (by rw [← hj]; exact (updA_ne _ _ ej).symm)
      · rw [← ht j (by omega)]
        exact updA_ne _ _ (by omega)
      · by_cases ej : j = i
        · right; obtain ⟨l, hl⟩ := hv; exact ⟨l, t, hl, st, by rw [ej]; exact dependentC_of_check ((still_full h.still).trans hf) ec⟩
        · rcases h2 j (by omega) hq with h | h
          · exact Or.inl h
          · exact Or.inr (LeftOutC.mono st h)
  · next hc =>
    cases e
    refine ⟨h, hv, hs, fun j hj => ht j (by omega), fun j hj hq => ?_⟩
    by_cases ej : j = i
    · left; intro h0; exact hc ⟨ej ▸ hq, ej ▸ h0⟩
    · exact h2 j (by omega) hq

/-- The guessed bounds are added unless they are linearly dependent. -/
theorem adoptAddB {sq : K → K} {s0 s s' : QPC K} {wB wC : WS} {upd : Bool} (hf : s0.options.enableFullLITests = false)
    (hw : ∀ i < s0.nV, Proper (wB.getStatus i)) (h : Only s0 s wB wC) (hv : Via sq upd s0 s)
    (e : seqLoop (auxAddB sq (some wB) upd) s.nV 0 s = .ok (SUCCESSFUL_RETURN, s')) :
    Only s0 s' wB wC ∧ Via sq upd s0 s' ∧ Stage s s' ∧ s'.cons.type = s.cons.type ∧
      ∀ j < s0.nV, s0.bounds.type j ≠ ST_EQUALITY → wB.getStatus j ≠ ST_INACTIVE → s'.bounds.status j ≠ ST_INACTIVE ∨ LeftOutB sq upd s0 s' j := by
  refine seqLoop_inv (f := auxAddB sq (some wB) upd) (P := fun i t => Only s0 t wB wC ∧ Via sq upd s0 t ∧ Stage s t ∧ t.cons.type = s.cons.type ∧
      ∀ j < i, s0.bounds.type j ≠ ST_EQUALITY → wB.getStatus j ≠ ST_INACTIVE → t.bounds.status j ≠ ST_INACTIVE ∨ LeftOutB sq upd s0 t j)
    (N := s0.nV) ?_ s.nV 0 s s' (by rw [h.nV]; omega)
    ⟨h, hv, Stage.refl s, rfl, fun j hj => absurd hj (by omega)⟩ e
  intro i hi t t' ⟨h, hv, hs, htc, h2⟩ e
  unfold auxAddB at e
  rw [h.statusB hi, h.typeB] at e
  have ew : t.wantB (some wB) i = wB.getStatus i := rfl
  rw [ew] at e
  split at e
  · next hc =>
    obtain ⟨c, ec, e⟩ := Res.bind_eq_ok.1 e
    cases c with
    | true =>
      rw [if_pos rfl] at e
      obtain ⟨m, a1, a2⟩ := addBoundAs_exact h.shape (by rw [h.nV]; exact hi) ((hw i hi).resolve_left hc.2.2) (fun _ => ec) e
      have st := Stage.addB hc.2.1 m a1 a2
      refine ⟨h.addB (Or.inl rfl) m a1 a2, hv.step (.fix i (wB.getStatus i)) ⟨by rw [h.nV]; exact hi, (hw i hi).resolve_left hc.2.2⟩ e, hs.trans st, m.typeC.trans htc, fun j hj hq hg => ?_⟩
      by_cases ej : j = i
      · left; rw [a1, ej, updA_same]; exact hc.2.2
      · rcases h2 j (by omega) hq hg with h | h
        · left; rw [st.keptB j h]; exact h
        · right; exact LeftOutB.mono st h
    | false =>
      rw [if_neg (by decide)] at e
      cases e
      refine ⟨h, hv, hs, htc, fun j hj hq hg => ?_⟩
      by_cases ej : j = i
      · right; obtain ⟨l, hl⟩ := hv; exact ⟨l, t, hl, Stage.refl t, by rw [ej]; exact dependentB_of_check ((still_full h.still).trans hf) ec⟩
      · exact h2 j (by omega) hq hg
  · next hc =>
    cases e
    refine ⟨h, hv, hs, htc, fun j hj hq hg => ?_⟩
    by_cases ej : j = i
    · left; intro h0; exact hc ⟨ej ▸ hq, ej ▸ h0, ej ▸ hg⟩
    · exact h2 j (by omega) hq hg

/-- The guessed constraints are added unless they are linearly dependent. -/
theorem adoptAddC {sq : K → K} {s0 s s' : QPC K} {wB wC : WS} {upd : Bool} (hf : s0.options.enableFullLITests = false)
    (hw : ∀ i < s0.nC, Proper (wC.getStatus i)) (h : Only s0 s wB wC) (hv : Via sq upd s0 s)
    (e : seqLoop (auxAddC sq (some wC) upd) s.nC 0 s = .ok (SUCCESSFUL_RETURN, s')) :
    Only s0 s' wB wC ∧ Via sq upd s0 s' ∧ Stage s s' ∧
      ∀ j < s0.nC, s0.cons.type j ≠ ST_EQUALITY → wC.getStatus j ≠ ST_INACTIVE → s'.cons.status j ≠ ST_INACTIVE ∨ LeftOutC sq upd s0 s' j := by
  refine seqLoop_inv (f := auxAddC sq (some wC) upd) (P := fun i t => Only s0 t wB wC ∧ Via sq upd s0 t ∧ Stage s t ∧
      ∀ j < i, s0.cons.type j ≠ ST_EQUALITY → wC.getStatus j ≠ ST_INACTIVE → t.cons.status j ≠ ST_INACTIVE ∨ LeftOutC sq upd s0 t j)
    (N := s0.nC) ?_ s.nC 0 s s' (by rw [h.nC]; omega)
    ⟨h, hv, Stage.refl s, fun j hj => absurd hj (by omega)⟩ e
  intro i hi t t' ⟨h, hv, hs, h2⟩ e
  unfold auxAddC at e
  rw [h.statusC hi] at e
  have ew : t.wantC (some wC) i = wC.getStatus i := rfl
  rw [ew] at e
  split at e
  · next hc =>
    obtain ⟨c, ec, e⟩ := Res.bind_eq_ok.1 e
    cases c with
    | true =>
      rw [if_pos rfl] at e
      obtain ⟨m, a1, a2⟩ := addConstraintAs_exact h.shape (by rw [h.nC]; exact hi) ((hw i hi).resolve_left hc.2.1) (fun _ => ec) e
      have st := Stage.addC hc.2.2 m a1 a2
      refine ⟨h.addC (Or.inl rfl) m a1 a2, hv.step (.activate i (wC.getStatus i)) ⟨by rw [h.nC]; exact hi, (hw i hi).resolve_left hc.2.1⟩ e, hs.trans st, fun j hj hq hg => ?_⟩
      by_cases ej : j = i
      · left; rw [a1, ej, updA_same]; exact hc.2.1
      · rcases h2 j (by omega) hq hg with h | h
        · left; rw [st.keptC j h]; exact h
        · right; exact LeftOutC.mono st h
    | false =>
      rw [if_neg (by decide)] at e
      cases e
      refine ⟨h, hv, hs, fun j hj hq hg => ?_⟩
      by_cases ej : j = i
      · right; obtain ⟨l, hl⟩ := hv; exact ⟨l, t, hl, Stage.refl t, by rw [ej]; exact dependentC_of_check ((still_full h.still).trans hf) ec⟩
      · exact h2 j (by omega) hq hg
  · next hc =>
    cases e
    refine ⟨h, hv, hs, fun j hj hq hg => ?_⟩
    by_cases ej : j = i
    · left
      intro h0
      exact hc ⟨fun ht => hq (by rw [ej]; exact h.typeC i ht), ej ▸ hg, ej ▸ h0⟩
    · exact h2 j (by omega) hq hg

/-- Members that are not in the guess are removed: constraints. -/
theorem adoptRemoveC {sq : K → K} {s0 s' : QPC K} {wC : WS} (hz : s0.options.enableNZCTests = false) (hs : s0.Shape)
    (e : seqLoop (auxRemoveC sq (some wC)) s0.nC 0 s0 = .ok (SUCCESSFUL_RETURN, s')) :
    Moved s' s0 ∧ Via sq true s0 s' ∧ ∀ j < s0.nC, s'.cons.status j ≠ ST_INACTIVE → s'.cons.status j = wC.getStatus j := by
  refine seqLoop_inv (f := auxRemoveC sq (some wC)) (P := fun i t => Moved t s0 ∧ Via sq true s0 t ∧
      ∀ j < i, t.cons.status j ≠ ST_INACTIVE → t.cons.status j = wC.getStatus j)
    (N := s0.nC) ?_ s0.nC 0 s0 s' (by omega) ⟨Moved.refl hs, ⟨_, .start⟩, fun j hj => absurd hj (by omega)⟩ e
  intro i hi t t' ⟨h, hv, h2⟩ e
  have hn : i < t.cons.n := by rw [h.shape.nC, still_nC h.still]; exact hi
  have rem : ∀ u u' : QPC K, Moved u s0 → Via sq true s0 u → (∀ j < i, u.cons.status j ≠ ST_INACTIVE → u.cons.status j = wC.getStatus j) →
      u.cons.getStatus i ≠ ST_INACTIVE → removeConstraint sq u i true false u.options.enableNZCTests = .ok (SUCCESSFUL_RETURN, u') →
      Moved u' s0 ∧ Via sq true s0 u' ∧ (∀ j < i, u'.cons.status j ≠ ST_INACTIVE → u'.cons.status j = wC.getStatus j) ∧ u'.cons.status i = ST_INACTIVE := by
    intro u u' h hv h2 hne e
    have hn : i < u.cons.n := by rw [h.shape.nC, still_nC h.still]; exact hi
    rw [WS.getStatus_of_lt hn] at hne
    rw [(still_nzc h.still).trans hz] at e
    obtain ⟨m, a1, a2⟩ := removeConstraint_ws h.shape
      (h.shape.okC.mem_fixed_iff.2 ⟨hn, (h.shape.okC.status_cases hn).resolve_left hne⟩) e
    refine ⟨m.trans h, hv.step (.deactivate i) ⟨rfl, by rw [still_nC h.still]; exact hi⟩ e, fun j hj ha => ?_, by rw [a1, updA_same]⟩
    rw [a1, updA_ne _ _ (by omega)] at ha ⊢
    exact h2 j hj ha
  unfold auxRemoveC at e
  have ew : ∀ t : QPC K, t.wantC (some wC) i = wC.getStatus i := fun _ => rfl
  simp only [ew] at e
  obtain ⟨u, ⟨m, mv, b, c⟩, e⟩ : ∃ u : QPC K, (Moved u s0 ∧ Via sq true s0 u ∧ (∀ j < i, u.cons.status j ≠ ST_INACTIVE → u.cons.status j = wC.getStatus j) ∧
      (u.cons.status i = ST_LOWER → wC.getStatus i = ST_LOWER)) ∧
      (if u.cons.getStatus i = ST_UPPER ∧ wC.getStatus i ≠ ST_UPPER then removeConstraint sq u i true false u.options.enableNZCTests
        else .ok (SUCCESSFUL_RETURN, u)) = .ok (SUCCESSFUL_RETURN, t') := by
    split at e
    · next hc =>
      obtain ⟨⟨r, u⟩, e1, e⟩ := Res.bind_eq_ok.1 e
      dsimp only at e
      split at e
      · cases e; exact absurd rfl ‹_›
      next hr =>
      rw [not_not] at hr
      subst hr
      obtain ⟨a, a', b, c⟩ := rem t u h hv h2 (by rw [hc.1]; decide) e1
      exact ⟨u, ⟨a, a', b, fun h => by rw [c] at h; cases h⟩, e⟩
    · next hc =>
      rw [Res.bind_ok] at e
      dsimp only at e
      rw [if_neg (fun h => h rfl)] at e
      refine ⟨t, ⟨h, hv, h2, fun hl => ?_⟩, e⟩
      rw [WS.getStatus_of_lt hn] at hc
      by_contra hw
      exact hc ⟨hl, hw⟩
  have hn' : i < u.cons.n := by rw [m.shape.nC, still_nC m.still]; exact hi
  split at e
  · next hc =>
    obtain ⟨a, a', b, c⟩ := rem u t' m mv b (by rw [hc.1]; decide) e
    refine ⟨a, a', fun j hj ha => ?_⟩
    by_cases ej : j = i
    · rw [ej] at ha; exact absurd c ha
    · exact b j (by omega) ha
  · next hc =>
    cases e
    refine ⟨m, mv, fun j hj ha => ?_⟩
    by_cases ej : j = i
    · rw [ej] at ha ⊢
      rcases (m.shape.okC.status_cases hn').resolve_left ha with h | h
      · rw [h, c h]
      · rw [WS.getStatus_of_lt hn'] at hc
        by_contra hw
        exact hc ⟨h, fun h' => hw (by rw [h, h'])⟩
    · exact b j (by omega) ha

/-- Members that are not in the guess are removed: bounds. -/
theorem adoptRemoveB {sq : K → K} {s0 s s' : QPC K} {wB : WS} (hz : s0.options.enableNZCTests = false) (hs : Moved s s0) (hv : Via sq true s0 s)
    (e : seqLoop (auxRemoveB sq (some wB)) s.nV 0 s = .ok (SUCCESSFUL_RETURN, s')) :
    Moved s' s0 ∧ Via sq true s0 s' ∧ s'.cons = s.cons ∧ ∀ j < s0.nV, s'.bounds.status j ≠ ST_INACTIVE → s'.bounds.status j = wB.getStatus j := by
  refine seqLoop_inv (f := auxRemoveB sq (some wB)) (P := fun i t => Moved t s0 ∧ Via sq true s0 t ∧ t.cons = s.cons ∧
      ∀ j < i, t.bounds.status j ≠ ST_INACTIVE → t.bounds.status j = wB.getStatus j)
    (N := s0.nV) ?_ s.nV 0 s s' (by rw [still_nV hs.still]; omega) ⟨hs, hv, rfl, fun j hj => absurd hj (by omega)⟩ e
  intro i hi t t' ⟨h, hv, hcs, h2⟩ e
  have hn : i < t.bounds.n := by rw [h.shape.nB, still_nV h.still]; exact hi
  have rem : ∀ u u' : QPC K, Moved u s0 → Via sq true s0 u → u.cons = s.cons → (∀ j < i, u.bounds.status j ≠ ST_INACTIVE → u.bounds.status j = wB.getStatus j) →
      u.bounds.getStatus i ≠ ST_INACTIVE → removeBound sq u i true false u.options.enableNZCTests = .ok (SUCCESSFUL_RETURN, u') →
      Moved u' s0 ∧ Via sq true s0 u' ∧ u'.cons = s.cons ∧ (∀ j < i, u'.bounds.status j ≠ ST_INACTIVE → u'.bounds.status j = wB.getStatus j) ∧
        u'.bounds.status i = ST_INACTIVE := by
    intro u u' h hv hcs h2 hne e
    have hn : i < u.bounds.n := by rw [h.shape.nB, still_nV h.still]; exact hi
    rw [WS.getStatus_of_lt hn] at hne
    rw [(still_nzc h.still).trans hz] at e
    obtain ⟨m, a1, a2⟩ := removeBound_ws h.shape
      (h.shape.okB.mem_fixed_iff.2 ⟨hn, (h.shape.okB.status_cases hn).resolve_left hne⟩) e
    refine ⟨m.trans h, hv.step (.free i) ⟨rfl, by rw [still_nV h.still]; exact hi⟩ e, a2.trans hcs, fun j hj ha => ?_, by rw [a1, updA_same]⟩
    rw [a1, updA_ne _ _ (by omega)] at ha ⊢
    exact h2 j hj ha
  unfold auxRemoveB at e
  have ew : ∀ t : QPC K, t.wantB (some wB) i = wB.getStatus i := fun _ => rfl
  simp only [ew] at e
  obtain ⟨u, ⟨m, mv, mc, b, c⟩, e⟩ : ∃ u : QPC K, (Moved u s0 ∧ Via sq true s0 u ∧ u.cons = s.cons ∧
      (∀ j < i, u.bounds.status j ≠ ST_INACTIVE → u.bounds.status j = wB.getStatus j) ∧
      (u.bounds.status i = ST_LOWER → wB.getStatus i = ST_LOWER)) ∧
      (if u.bounds.getStatus i = ST_UPPER ∧ wB.getStatus i ≠ ST_UPPER then removeBound sq u i true false u.options.enableNZCTests
        else .ok (SUCCESSFUL_RETURN, u)) = .ok (SUCCESSFUL_RETURN, t') := by
    split at e
    · next hc =>
      obtain ⟨⟨r, u⟩, e1, e⟩ := Res.bind_eq_ok.1 e
      dsimp only at e
      split at e
      · cases e; exact absurd rfl ‹_›
      next hr =>
      rw [not_not] at hr
      subst hr
      obtain ⟨a, a', a2, b, c⟩ := rem t u h hv hcs h2 (by rw [hc.1]; decide) e1
      exact ⟨u, ⟨a, a', a2, b, fun h => by rw [c] at h; cases h⟩, e⟩
    · next hc =>
      rw [Res.bind_ok] at e
      dsimp only at e
      rw [if_neg (fun h => h rfl)] at e
      refine ⟨t, ⟨h, hv, hcs, h2, fun hl => ?_⟩, e⟩
      rw [WS.getStatus_of_lt hn] at hc
      by_contra hw
      exact hc ⟨hl, hw⟩
  have hn' : i < u.bounds.n := by rw [m.shape.nB, still_nV m.still]; exact hi
  split at e
  · next hc =>
    obtain ⟨a, a', a2, b, c⟩ := rem u t' m mv mc b (by rw [hc.1]; decide) e
    refine ⟨a, a', a2, fun j hj ha => ?_⟩
    by_cases ej : j = i
    · rw [ej] at ha; exact absurd c ha
    · exact b j (by omega) ha
  · next hc =>
    cases e
    refine ⟨m, mv, mc, fun j hj ha => ?_⟩
    by_cases ej : j = i
    · rw [ej] at ha ⊢
      rcases (m.shape.okB.status_cases hn').resolve_left ha with h | h
      · rw [h, c h]
      · rw [WS.getStatus_of_lt hn'] at hc
        by_contra hw
        exact hc ⟨h, fun h' => hw (by rw [h, h'])⟩
    · exact b j (by omega) ha

/-- Every active member is guessed to be active on the same side. -/
def Extended (s : QPC K) (wB wC : WS) : Prop :=
  (∀ i < s.nV, s.bounds.status i ≠ ST_INACTIVE → s.bounds.status i = wB.getStatus i) ∧
    ∀ i < s.nC, s.cons.status i ≠ ST_INACTIVE → s.cons.status i = wC.getStatus i

theorem seqLoop_same {f : Nat → QPC K → Res (ReturnValue × QPC K)} {N : Nat} {s : QPC K} (h : ∀ i < N, f i s = .ok (SUCCESSFUL_RETURN, s)) :
    ∀ m i, i + m = N → seqLoop f m i s = .ok (SUCCESSFUL_RETURN, s) := by
  intro m
  induction m with
  | zero => intro i _; rfl
  | succ m ih =>
    intro i hN
    rw [seqLoop, h i (by omega), Res.bind_ok]
    dsimp only
    rw [if_neg (fun h => h rfl)]
    exact ih (i+1) (by omega)

theorem removeC_nothing {sq : K → K} {s : QPC K} (hs : s.Shape) {wB wC : WS} (h : s.Extended wB wC) :
    seqLoop (auxRemoveC sq (some wC)) s.nC 0 s = .ok (SUCCESSFUL_RETURN, s) := by
  refine seqLoop_same (N := s.nC) (fun i hi => ?_) _ _ (by omega)
  have hn : i < s.cons.n := by rw [hs.nC]; exact hi
  have ew : s.wantC (some wC) i = wC.getStatus i := rfl
  have key := h.2 i hi
  unfold auxRemoveC
  rw [ew, WS.getStatus_of_lt hn]
  rw [if_neg (fun hc => hc.2 (by rw [← key (by rw [hc.1]; decide), hc.1])), Res.bind_ok]
  dsimp only
  rw [if_neg (fun h => h rfl), ew, WS.getStatus_of_lt hn, if_neg (fun hc => hc.2 (by rw [← key (by rw [hc.1]; decide), hc.1]))]

theorem removeB_nothing {sq : K → K} {s : QPC K} (hs : s.Shape) {wB wC : WS} (h : s.Extended wB wC) :
    seqLoop (auxRemoveB sq (some wB)) s.nV 0 s = .ok (SUCCESSFUL_RETURN, s) := by
  refine seqLoop_same (N := s.nV) (fun i hi => ?_) _ _ (by omega)
  have hn : i < s.bounds.n := by rw [hs.nB]; exact hi
  have ew : s.wantB (some wB) i = wB.getStatus i := rfl
  have key := h.1 i hi
  unfold auxRemoveB
  rw [ew, WS.getStatus_of_lt hn]
  rw [if_neg (fun hc => hc.2 (by rw [← key (by rw [hc.1]; decide), hc.1])), Res.bind_ok]
  dsimp only
  rw [if_neg (fun h => h rfl), ew, WS.getStatus_of_lt hn, if_neg (fun hc => hc.2 (by rw [← key (by rw [hc.1]; decide), hc.1]))]

/-- The loops adopt the guess.  If the old factors are updated, exchanges and dropping must be switched off. -/
theorem auxLoops_guess {sq : K → K} {s s' : QPC K} (hs : s.Shape) {wB wC : WS} {fresh : Bool} (hf : s.options.enableFullLITests = false)
    (hB : ∀ i < s.nV, Proper (wB.getStatus i)) (hC : ∀ i < s.nC, Proper (wC.getStatus i))
    (hnew : fresh = true → (∀ i < s.nV, s.bounds.status i = ST_INACTIVE) ∧ ∀ i < s.nC, s.cons.status i = ST_INACTIVE)
    (hold : fresh = false → (s.options.enableNZCTests = false ∨ s.Extended wB wC) ∧ s.options.enableDropInfeasibles = false)
    (e : auxLoops sq s (some wB) (some wC) fresh = .ok (SUCCESSFUL_RETURN, s')) :
    Adopted sq (!fresh) s s' wB wC s.bounds.type s.cons.type ∧ s'.Shape ∧ s'.still = s.still := by
  unfold auxLoops at e
  dsimp only at e
  obtain ⟨s0, ⟨h0, hv0, ht0⟩, s1, e1, s2, e2, s3, e3, e⟩ : ∃ s0 : QPC K, (Only s s0 wB wC ∧ Via sq (!fresh) s s0 ∧ s0.cons.type = s.cons.type) ∧
      ∃ s1, seqLoop (auxEqB sq !fresh) s0.nV 0 s0 = .ok (SUCCESSFUL_RETURN, s1) ∧
      ∃ s2, seqLoop (auxEqC sq !fresh) s1.nC 0 s1 = .ok (SUCCESSFUL_RETURN, s2) ∧
      ∃ s3, seqLoop (auxAddB sq (some wB) !fresh) s2.nV 0 s2 = .ok (SUCCESSFUL_RETURN, s3) ∧
      seqLoop (auxAddC sq (some wC) !fresh) s3.nC 0 s3 = .ok (SUCCESSFUL_RETURN, s') := by
    have rest : ∀ s0 : QPC K, (do
        let (r, s) ← seqLoop (auxEqB sq !fresh) s0.nV 0 s0
        if r ≠ SUCCESSFUL_RETURN then .ok (r, s) else do
        let (r, s) ← seqLoop (auxEqC sq !fresh) s.nC 0 s
        if r ≠ SUCCESSFUL_RETURN then .ok (r, s) else do
        let (r, s) ← seqLoop (auxAddB sq (some wB) !fresh) s.nV 0 s
        if r ≠ SUCCESSFUL_RETURN then .ok (r, s) else seqLoop (auxAddC sq (some wC) !fresh) s.nC 0 s) = .ok (SUCCESSFUL_RETURN, s') →
        ∃ s1, seqLoop (auxEqB sq !fresh) s0.nV 0 s0 = .ok (SUCCESSFUL_RETURN, s1) ∧
        ∃ s2, seqLoop (auxEqC sq !fresh) s1.nC 0 s1 = .ok (SUCCESSFUL_RETURN, s2) ∧
        ∃ s3, seqLoop (auxAddB sq (some wB) !fresh) s2.nV 0 s2 = .ok (SUCCESSFUL_RETURN, s3) ∧
        seqLoop (auxAddC sq (some wC) !fresh) s3.nC 0 s3 = .ok (SUCCESSFUL_RETURN, s') := by
      intro s0 e
      obtain ⟨⟨r1, s1⟩, e1, e⟩ := Res.bind_eq_ok.1 e
      dsimp only at e
      split at e
      · cases e; exact absurd rfl ‹_›
      next hr1 =>
      rw [not_not] at hr1; subst hr1
      obtain ⟨⟨r2, s2⟩, e2, e⟩ := Res.bind_eq_ok.1 e
      dsimp only at e
      split at e
      · cases e; exact absurd rfl ‹_›
      next hr2 =>
      rw [not_not] at hr2; subst hr2
      obtain ⟨⟨r3, s3⟩, e3, e⟩ := Res.bind_eq_ok.1 e
      dsimp only at e
      split at e
      · cases e; exact absurd rfl ‹_›
      next hr3 =>
      rw [not_not] at hr3; subst hr3
      exact ⟨s1, e1, s2, e2, s3, e3, e⟩
    cases fresh with
    | true =>
      rw [if_pos rfl, Res.bind_ok] at e
      dsimp only at e
      rw [if_neg (fun h => h rfl)] at e
      obtain ⟨a, b⟩ := hnew rfl
      exact ⟨s, ⟨⟨hs, rfl, rfl, fun _ h => h, fun j hj h => absurd (a j hj) h, fun j hj h => absurd (b j hj) h⟩, ⟨_, .start⟩, rfl⟩, rest s e⟩
    | false =>
      rw [if_neg (by decide)] at e
      obtain ⟨⟨r4, s4⟩, e4, e⟩ := Res.bind_eq_ok.1 e
      dsimp only at e
      split at e
      · next hr4 =>
        rw [Res.bind_ok] at e
        dsimp only at e
        rw [if_pos hr4] at e
        cases e
        exact absurd rfl hr4
      next hr4 =>
      rw [not_not] at hr4; subst hr4
      obtain ⟨⟨r5, s5⟩, e5, e⟩ := Res.bind_eq_ok.1 e
      dsimp only at e
      split at e
      · cases e; exact absurd rfl ‹_›
      next hr5 =>
      rw [not_not] at hr5; subst hr5
      rcases (hold rfl).1 with hz | hx
      swap
      · rw [removeC_nothing hs hx] at e4
        cases e4
        rw [removeB_nothing hs hx] at e5
        cases e5
        exact ⟨s, ⟨⟨hs, rfl, rfl, fun _ h => h, fun j hj h => Or.inl (hx.1 j hj h), fun j hj h => Or.inl (hx.2 j hj h)⟩, ⟨_, .start⟩, rfl⟩, rest s e⟩
      obtain ⟨a1, av, a2⟩ := adoptRemoveC hz hs e4
      obtain ⟨b1, bv, b2, b3⟩ := adoptRemoveB hz a1 av e5
      exact ⟨s5, ⟨⟨b1.shape, b1.still, b1.typeB, fun j h => by rw [← b1.typeC]; exact h, fun j hj h => Or.inl (b3 j hj h),
        fun j hj h => Or.inl (by rw [b2] at h ⊢; exact a2 j hj h)⟩, bv, b1.typeC⟩, rest s5 e⟩
  have hd : (!fresh) = true → s.options.enableDropInfeasibles = false := fun h => (hold (by simpa using h)).2
  obtain ⟨h1, v1, g1⟩ := adoptEqB hd h0 hv0 e1
  have ht1 : s1.cons.type = s.cons.type := by
    rw [← ht0]
    exact (seqLoop_inv (f := auxEqB sq !fresh) (P := fun _ t => Only s t wB wC ∧ t.cons.type = s0.cons.type) (N := s.nV) (by
      intro i hi t t' ⟨h, ht⟩ e
      unfold auxEqB at e
      split at e
      · next hc =>
        rw [h.typeB] at hc
        obtain ⟨u, f, m, a1, a2⟩ := addBoundAs_weak h.shape (by rw [h.nV]; exact hi) (Or.inl rfl) (fun hu => (still_drop h.still).trans (hd hu)) e
        exact ⟨(h.fewer f).addB (Or.inr hc.1) m a1 a2, (m.typeC.trans f.moved.typeC).trans ht⟩
      · cases e; exact ⟨h, ht⟩) s0.nV 0 s0 s1 (by rw [h0.nV]; omega) ⟨h0, rfl⟩ e1).2
  obtain ⟨h2, v2, st2, g2⟩ := adoptEqC hf h1 v1 g1 ht1 e2
  obtain ⟨h3, v3, st3, _, g3⟩ := adoptAddB hf hB h2 v2 e3
  obtain ⟨h4, _, st4, g4⟩ := adoptAddC hf hC h3 v3 e
  have geB : ∀ i < s.nV, s.bounds.type i = ST_EQUALITY → s'.bounds.status i ≠ ST_INACTIVE := by
    intro i hi ht
    have := g1 i hi ht
    have st := (st2.trans st3).trans st4
    rw [st.keptB i this]; exact this
  have geC : ∀ i < s.nC, s.cons.type i = ST_EQUALITY → s'.cons.status i ≠ ST_INACTIVE ∨ LeftOutC sq (!fresh) s s' i := by
    intro i hi ht
    have st := st3.trans st4
    rcases g2 i hi ht with h | h
    · left; rw [st.keptC i h]; exact h
    · right; exact LeftOutC.mono st h
  refine ⟨⟨?_, ?_, ?_, ?_, ?_, ?_⟩, h4.shape, h4.still⟩
  · rw [h4.nV]; exact h4.onlyB
  · rw [h4.nC]; exact h4.onlyC
  · rw [h4.nV]
    intro i hi hg
    by_cases ht : s.bounds.type i = ST_EQUALITY
    · exact Or.inl (geB i hi ht)
    · rcases g3 i hi ht hg with h | h
      · left; rw [st4.keptB i h]; exact h
      · right; exact LeftOutB.mono st4 h
  · rw [h4.nC]
    intro i hi hg
    by_cases ht : s.cons.type i = ST_EQUALITY
    · exact geC i hi ht
    · exact g4 i hi ht hg
  · rw [h4.nV]; exact geB
  · rw [h4.nC]; exact geC

/-- Fixing all free variables as guessed. -/
theorem fixAll_status {w : WS} : ∀ (m : Nat) (b : WS), (∀ i < b.n, b.status i = ST_INACTIVE) → m ≤ b.n →
    let b' := loop (fun i b => if b.getStatus i = ST_INACTIVE then b.moveFreeToFixed i (w.getStatus i) else b) m b
    b'.n = b.n ∧ ∀ i < b.n, b'.status i = if i < m then w.getStatus i else ST_INACTIVE := by
  intro m
  induction m with
  | zero => intro b h _; exact ⟨rfl, fun i hi => by rw [if_neg (by omega)]; exact h i hi⟩
  | succ m ih =>
    intro b h hm
    obtain ⟨h1, h2⟩ := ih b h (by omega)
    dsimp only at h1 h2 ⊢
    rw [loop]
    generalize loop (fun i b => if b.getStatus i = ST_INACTIVE then b.moveFreeToFixed i (w.getStatus i) else b) m b = c at *
    have hc : c.getStatus m = ST_INACTIVE := by
      rw [WS.getStatus_of_lt (by omega), h2 m (by omega), if_neg (by omega)]
    rw [if_pos hc]
    refine ⟨h1, fun i hi => ?_⟩
    show updA c.status m (w.getStatus m) i = _
    by_cases e : i = m
    · rw [e, updA_same, if_pos (by omega)]
    · rw [updA_ne _ _ e, h2 i hi]
      by_cases h' : i < m
      · rw [if_pos h', if_pos (by omega)]
      · rw [if_neg h', if_neg (by omega)]

/-- Setting up the auxiliary working set adopts the guess: afresh, or by changing the previous working set if that involves neither exchanges
nor dropping, and the short cut for trivial working sets is not taken. -/
theorem setupAuxiliaryWorkingSet_guess {sq : K → K} {s s' : QPC K} (hs : s.Shape) {wB wC : WS} {fresh : Bool}
    (hB : ∀ i < s.nV, Proper (wB.getStatus i)) (hC : ∀ i < s.nC, Proper (wC.getStatus i))
    (hnew : fresh = true → (∀ i < s.nV, s.bounds.status i = ST_INACTIVE) ∧ ∀ i < s.nC, s.cons.status i = ST_INACTIVE)
    (hold : fresh = false → (s.options.enableNZCTests = false ∨ s.Extended wB wC) ∧ s.options.enableDropInfeasibles = false ∧
      s.isTrivial (some wB) (some wC) = false)
    (e : setupAuxiliaryWorkingSet sq s (some wB) (some wC) fresh = .ok (SUCCESSFUL_RETURN, s')) :
    Adopted sq (!fresh) s.plainLI s' wB wC s.bounds.type s.cons.type ∧ s'.Shape ∧ s'.still = s.still := by
  unfold setupAuxiliaryWorkingSet at e
  split at e
  · cases e
  split at e
  · cases e
  split at e
  · next ht =>
    cases e
    cases fresh with
    | false => rw [(hold rfl).2.2] at ht; cases ht
    | true =>
      obtain ⟨aB, aC⟩ := hnew rfl
      unfold isTrivial at ht
      rw [Bool.and_eq_true] at ht
      have tB : ∀ i < s.nV, wB.getStatus i ≠ ST_INACTIVE := by
        intro i hi
        have := List.all_eq_true.1 ht.1 i (List.mem_range.2 hi)
        simpa [wantB] using this
      have tC : ∀ i < s.nC, s.cons.type i ≠ ST_EQUALITY ∧ wC.getStatus i = ST_INACTIVE := by
        intro i hi
        have := List.all_eq_true.1 ht.2 i (List.mem_range.2 hi)
        simpa [wantC] using this
      obtain ⟨b1, b2, _⟩ := fixAll_loop (w := wB) s.nV s.bounds hs.okB (by rw [hs.nB]) (fun i hi => (hB i hi).resolve_left (tB i hi))
      obtain ⟨_, c2⟩ := fixAll_status (w := wB) s.nV s.bounds (by rw [hs.nB]; exact aB) (by rw [hs.nB])
      have st : ∀ i < s.nV, (s.fixAll (some wB)).bounds.status i = wB.getStatus i := by
        intro i hi
        exact (c2 i (by rw [hs.nB]; exact hi)).trans (if_pos hi)
      refine ⟨⟨fun i hi _ => Or.inl (st i hi), fun i hi h => absurd (aC i hi) h, fun i hi h => Or.inl (by rw [st i hi]; exact h),
        fun i hi h => absurd (tC i hi).2 h, fun i hi _ => by rw [st i hi]; exact tB i hi, fun i hi h => absurd h (tC i hi).1⟩,
        ⟨b1, hs.okC, b2.trans hs.nB, hs.nC, hs.size⟩, rfl⟩
  · dsimp only at e
    obtain ⟨⟨r, t⟩, e1, e⟩ := Res.bind_eq_ok.1 e
    dsimp only at e
    split at e
    · cases e
    next hr =>
    rw [not_not] at hr; subst hr
    cases e
    obtain ⟨a, b, c⟩ := auxLoops_guess (s := s.plainLI) ⟨hs.okB, hs.okC, hs.nB, hs.nC, hs.size⟩ rfl hB hC hnew
      (fun h => ⟨(hold h).1, (hold h).2.1⟩) e1
    have heps : t.options.epsLITests = s.options.epsLITests := (still_eps c).trans rfl
    have sB : ∀ i, LeftOutB sq (!fresh) s.plainLI t i → LeftOutB sq (!fresh) s.plainLI { t with options := { t.options with enableFullLITests := s.options.enableFullLITests, epsLITests := s.options.epsLITests } } i := by
      rintro i ⟨l, u, v, ⟨k1, k2, k3, k4⟩, d⟩
      exact ⟨l, u, v, ⟨k1, k2, k3, k4.trans heps⟩, d⟩
    have sC : ∀ i, LeftOutC sq (!fresh) s.plainLI t i → LeftOutC sq (!fresh) s.plainLI { t with options := { t.options with enableFullLITests := s.options.enableFullLITests, epsLITests := s.options.epsLITests } } i := by
      rintro i ⟨l, u, v, ⟨k1, k2, k3, k4⟩, d⟩
      exact ⟨l, u, v, ⟨k1, k2, k3, k4.trans heps⟩, d⟩
    refine ⟨⟨a.onlyB, a.onlyC, fun i hi h => (a.allB i hi h).imp_right (sB i), fun i hi h => (a.allC i hi h).imp_right (sC i), a.eqB,
      fun i hi h => (a.eqC i hi h).imp_right (sC i)⟩, ⟨b.okB, b.okC, b.nB, b.nC, b.size⟩, ?_⟩
    have ho := still_options c
    simp only [QPC.still, QPC.base, QPC.lasting, plainLI, Prod.mk.injEq] at c ⊢
    obtain ⟨⟨⟨c1, c2, c3, c4, c5, c6, c7, c8, c9, c10⟩, c11⟩, c12⟩ := c
    refine ⟨⟨⟨c1, c2, c3, c4, c5, c6, c7, c8, ?_, c10⟩, c11⟩, c12⟩
    rcases hto : t.options with ⟨⟩
    rcases hso : s.options with ⟨⟩
    rw [hto, hso] at c9
    simp only [Options.mk.injEq] at c9 ⊢
    tauto

/-! ### Success of a set-up from scratch -/

theorem count_free {w : WS} (hw : w.OK) {i : Nat} (hi : i ∈ w.free) (ht : w.type i ≠ ST_UNBOUNDED)
    (hu : ∀ j < w.n, w.type j = ST_UNBOUNDED → w.status j = ST_INACTIVE) : w.nUV < w.nFR := by
  unfold WS.nUV WS.nFR
  rw [List.countP_eq_length_filter]
  have hsub : (i :: (List.range w.n).filter fun j => w.type j == ST_UNBOUNDED).Subperm w.free := by
    refine List.subperm_of_subset (List.nodup_cons.2 ⟨?_, List.nodup_range.filter _⟩) ?_
    · intro h
      have := (List.mem_filter.1 h).2
      exact ht (by simpa using this)
    · intro j hj
      rcases List.mem_cons.1 hj with rfl | hj
      · exact hi
      · obtain ⟨h1, h2⟩ := List.mem_filter.1 hj
        have h1 := List.mem_range.1 h1
        exact hw.mem_free_iff.2 ⟨h1, hu j h1 (by simpa using h2)⟩
  have := hsub.length_le
  rw [List.length_cons] at this
  omega

/-- Members without limits are not active, and the object accepts changes of the working set. -/
structure Loose (s : QPC K) : Prop where
  shape : s.Shape
  accepts : s.noChanges = false
  looseB : ∀ j < s.nV, s.bounds.type j = ST_UNBOUNDED → s.bounds.status j = ST_INACTIVE
  looseC : ∀ j < s.nC, s.cons.type j = ST_UNBOUNDED → s.cons.status j = ST_INACTIVE

theorem still_noChanges {s' s : QPC K} (h : s'.still = s.still) : s'.noChanges = s.noChanges := by
  have : s'.status = s.status := congrArg (fun p => p.2.1) h
  unfold noChanges
  rw [this]

theorem Loose.addB {sq : K → K} {s s' : QPC K} (h : Loose s) {i : Nat} (hi : i < s.nV) (hin : s.bounds.status i = ST_INACTIVE)
    (ht : s.bounds.type i ≠ ST_UNBOUNDED) {st : SubjectToStatus} (hst : st = ST_LOWER ∨ st = ST_UPPER) {r : ReturnValue}
    (e : addBoundAs sq s i st false = .ok (r, s')) : r = SUCCESSFUL_RETURN ∧ Loose s' ∧ Moved s' s := by
  have hn : i < s.bounds.n := by rw [h.shape.nB]; exact hi
  have hm := h.shape.okB.mem_free_iff.2 ⟨hn, hin⟩
  have hcheck : s.addBoundCheck i = none := by
    unfold addBoundCheck
    rw [if_neg (by rw [WS.getStatus_of_lt hn, hin]; exact fun h => h rfl), if_neg, if_neg (by rw [h.accepts]; decide)]
    have := count_free h.shape.okB hm ht (by rw [h.shape.nB]; exact h.looseB)
    have e : s.nFR = s.bounds.nFR := rfl
    omega
  unfold addBoundAs addBoundPlain at e
  rw [if_neg (by decide), hcheck] at e
  have e : addBoundUpdate sq s i st false = .ok (r, s') := e
  obtain ⟨m, a1, a2⟩ := addBoundUpdate_ws h.shape hm hst e
  refine ⟨(addBoundUpdate_still e).2, ⟨m.shape, (still_noChanges m.still).trans h.accepts, fun j hj hu => ?_, fun j hj hu => ?_⟩, m⟩
  · rw [m.typeB] at hu
    rw [a1, updA_ne _ _ (show j ≠ i from fun e => ht (e ▸ hu))]
    exact h.looseB j (by rw [← still_nV m.still]; exact hj) hu
  · rw [a2] at hu ⊢
    exact h.looseC j (by rw [← still_nC m.still]; exact hj) hu

theorem Loose.addC {sq : K → K} {s s' : QPC K} (h : Loose s) {i : Nat} (hi : i < s.nC) (hin : s.cons.status i = ST_INACTIVE)
    (ht : s.cons.type i ≠ ST_UNBOUNDED) {st : SubjectToStatus} (hst : st = ST_LOWER ∨ st = ST_UPPER) {r : ReturnValue}
    (e : addConstraintAs sq s i st false = .ok (r, s')) : r = SUCCESSFUL_RETURN ∧ Loose s' ∧ Moved s' s := by
  have hn : i < s.cons.n := by rw [h.shape.nC]; exact hi
  have hm := h.shape.okC.mem_free_iff.2 ⟨hn, hin⟩
  have hcheck : s.addConstraintCheck i = none := by
    unfold addConstraintCheck
    rw [if_neg (by rw [WS.getStatus_of_lt hn, hin]; exact fun h => h rfl), if_neg, if_neg (by rw [h.accepts]; decide)]
    have h1 := count_free h.shape.okC hm ht (by rw [h.shape.nC]; exact h.looseC)
    have h2 := h.shape.okC.perm.length_eq
    rw [List.length_append, List.length_range] at h2
    have e : s.nAC = s.cons.fixed.length := rfl
    unfold WS.nFR at h1
    omega
  unfold addConstraintAs addConstraintPlain at e
  rw [if_neg (by decide), hcheck] at e
  have e : addConstraintUpdate sq s i st false = .ok (r, s') := e
  obtain ⟨m, a1, a2⟩ := addConstraintUpdate_ws h.shape hm hst e
  refine ⟨(addConstraintUpdate_still e).2, ⟨m.shape, (still_noChanges m.still).trans h.accepts, fun j hj hu => ?_, fun j hj hu => ?_⟩, m⟩
  · rw [a2] at hu ⊢
    exact h.looseB j (by rw [← still_nV m.still]; exact hj) hu
  · rw [m.typeC] at hu
    rw [a1, updA_ne _ _ (show j ≠ i from fun e => ht (e ▸ hu))]
    exact h.looseC j (by rw [← still_nC m.still]; exact hj) hu

theorem seqLoop_success {f : Nat → QPC K → Res (ReturnValue × QPC K)} {N : Nat} {P : QPC K → Prop}
    (step : ∀ i < N, ∀ s r s', P s → f i s = .ok (r, s') → r = SUCCESSFUL_RETURN ∧ P s') :
    ∀ (m i : Nat) (s : QPC K) (r : ReturnValue) (s' : QPC K), i + m = N → P s → seqLoop f m i s = .ok (r, s') →
      r = SUCCESSFUL_RETURN ∧ P s' := by
  intro m
  induction m with
  | zero => intro i s r s' hN hp h; cases h; exact ⟨rfl, hp⟩
  | succ m ih =>
    intro i s r s' hN hp h
    rw [seqLoop] at h
    obtain ⟨⟨r1, s1⟩, e, h⟩ := Res.bind_eq_ok.1 h
    obtain ⟨rfl, hp1⟩ := step i (by omega) s _ s1 hp e
    dsimp only at h
    rw [if_neg (fun h => h rfl)] at h
    exact ih (i+1) s1 r s' (by omega) hp1 h

/-- Nothing goes wrong when a working set is set up from scratch, unless the guess contains members without limits. -/
theorem auxLoops_success {sq : K → K} {s s' : QPC K} (h : Loose s) {wB wC : WS} (hB : ∀ i < s.nV, Proper (wB.getStatus i))
    (hC : ∀ i < s.nC, Proper (wC.getStatus i)) (uB : ∀ i < s.nV, s.bounds.type i = ST_UNBOUNDED → wB.getStatus i = ST_INACTIVE)
    (uC : ∀ i < s.nC, s.cons.type i = ST_UNBOUNDED → wC.getStatus i = ST_INACTIVE) {r : ReturnValue}
    (e : auxLoops sq s (some wB) (some wC) true = .ok (r, s')) : r = SUCCESSFUL_RETURN := by
  let P : QPC K → Prop := fun t => Loose t ∧ t.nV = s.nV ∧ t.nC = s.nC ∧ t.bounds.type = s.bounds.type ∧
    ∀ j, t.cons.type j = ST_UNBOUNDED → s.cons.type j = ST_UNBOUNDED
  have hP : P s := ⟨h, rfl, rfl, rfl, fun _ h => h⟩
  have mv : ∀ {t t' : QPC K}, P t → Loose t' → Moved t' t → P t' := fun ⟨_, a, b, c, d⟩ l m =>
    ⟨l, (still_nV m.still).trans a, (still_nC m.still).trans b, m.typeB.trans c, fun j h => d j (by rw [← m.typeC]; exact h)⟩
  have l1 : ∀ i < s.nV, ∀ t r t', P t → auxEqB sq false i t = .ok (r, t') → r = SUCCESSFUL_RETURN ∧ P t' := by
    intro i hi t r t' hp e
    unfold auxEqB at e
    split at e
    · next hc =>
      obtain ⟨hl, a, b, c, d⟩ := hp
      rw [WS.getStatus_of_lt (by rw [hl.shape.nB, a]; exact hi)] at hc
      obtain ⟨k1, k2, k3⟩ := hl.addB (by rw [a]; exact hi) hc.2 (by rw [hc.1]; decide) (Or.inl rfl) e
      exact ⟨k1, mv ⟨hl, a, b, c, d⟩ k2 k3⟩
    · cases e; exact ⟨rfl, hp⟩
  have l2 : ∀ i < s.nC, ∀ t r t', P t → auxEqC sq false i t = .ok (r, t') → r = SUCCESSFUL_RETURN ∧ P t' := by
    intro i hi t r t' hp e
    unfold auxEqC at e
    split at e
    · next hc =>
      obtain ⟨hl, a, b, c, d⟩ := hp
      rw [WS.getStatus_of_lt (by rw [hl.shape.nC, b]; exact hi)] at hc
      obtain ⟨q, _, e⟩ := Res.bind_eq_ok.1 e
      cases q with
      | true =>
        rw [if_pos rfl] at e
        obtain ⟨k1, k2, k3⟩ := hl.addC (by rw [b]; exact hi) hc.2 (by rw [hc.1]; decide) (Or.inl rfl) e
        exact ⟨k1, mv ⟨hl, a, b, c, d⟩ k2 k3⟩
      | false =>
        rw [if_neg (by decide)] at e
        cases e
        have ht : ∀ j, updA t.cons.type i ST_BOUNDED j = ST_UNBOUNDED → t.cons.type j = ST_UNBOUNDED := by
          intro j hj
          by_cases ej : j = i
          · rw [ej, updA_same] at hj; cases hj
          · rwa [updA_ne _ _ ej] at hj
        exact ⟨rfl, ⟨⟨hl.shape.okB, ⟨hl.shape.okC.perm, hl.shape.okC.free, hl.shape.okC.fixed⟩, hl.shape.nB, hl.shape.nC, hl.shape.size⟩, hl.accepts, hl.looseB,
          fun j hj hu => hl.looseC j hj (ht j hu)⟩, a, b, c, fun j hj => d j (ht j hj)⟩
    · cases e; exact ⟨rfl, hp⟩
  have l3 : ∀ i < s.nV, ∀ t r t', P t → auxAddB sq (some wB) false i t = .ok (r, t') → r = SUCCESSFUL_RETURN ∧ P t' := by
    intro i hi t r t' hp e
    unfold auxAddB at e
    have ew : t.wantB (some wB) i = wB.getStatus i := rfl
    rw [ew] at e
    split at e
    · next hc =>
      obtain ⟨hl, a, b, c, d⟩ := hp
      rw [WS.getStatus_of_lt (by rw [hl.shape.nB, a]; exact hi)] at hc
      obtain ⟨q, _, e⟩ := Res.bind_eq_ok.1 e
      cases q with
      | true =>
        rw [if_pos rfl] at e
        obtain ⟨k1, k2, k3⟩ := hl.addB (by rw [a]; exact hi) hc.2.1 (fun h => hc.2.2 (uB i hi (by rw [← c]; exact h))) ((hB i hi).resolve_left hc.2.2) e
        exact ⟨k1, mv ⟨hl, a, b, c, d⟩ k2 k3⟩
      | false =>
        rw [if_neg (by decide)] at e
        cases e
        exact ⟨rfl, hl, a, b, c, d⟩
    · cases e; exact ⟨rfl, hp⟩
  have l4 : ∀ i < s.nC, ∀ t r t', P t → auxAddC sq (some wC) false i t = .ok (r, t') → r = SUCCESSFUL_RETURN ∧ P t' := by
    intro i hi t r t' hp e
    unfold auxAddC at e
    have ew : t.wantC (some wC) i = wC.getStatus i := rfl
    rw [ew] at e
    split at e
    · next hc =>
      obtain ⟨hl, a, b, c, d⟩ := hp
      rw [WS.getStatus_of_lt (w := t.cons) (by rw [hl.shape.nC, b]; exact hi)] at hc
      obtain ⟨q, _, e⟩ := Res.bind_eq_ok.1 e
      cases q with
      | true =>
        rw [if_pos rfl] at e
        obtain ⟨k1, k2, k3⟩ := hl.addC (by rw [b]; exact hi) hc.2.2 (fun h => hc.2.1 (uC i hi (d i h))) ((hC i hi).resolve_left hc.2.1) e
        exact ⟨k1, mv ⟨hl, a, b, c, d⟩ k2 k3⟩
      | false =>
        rw [if_neg (by decide)] at e
        cases e
        exact ⟨rfl, hl, a, b, c, d⟩
    · cases e; exact ⟨rfl, hp⟩
  unfold auxLoops at e
  dsimp only at e
  rw [if_pos rfl, Res.bind_ok] at e
  dsimp only at e
  rw [if_neg (fun h => h rfl)] at e
  obtain ⟨⟨r1, s1⟩, e1, e⟩ := Res.bind_eq_ok.1 e
  obtain ⟨rfl, p1⟩ := seqLoop_success l1 _ 0 s _ s1 (by omega) hP e1
  dsimp only at e
  rw [if_neg (fun h => h rfl)] at e
  obtain ⟨⟨r2, s2⟩, e2, e⟩ := Res.bind_eq_ok.1 e
  obtain ⟨rfl, p2⟩ := seqLoop_success l2 _ 0 s1 _ s2 (by rw [p1.2.2.1]; omega) p1 e2
  dsimp only at e
  rw [if_neg (fun h => h rfl)] at e
  obtain ⟨⟨r3, s3⟩, e3, e⟩ := Res.bind_eq_ok.1 e
  obtain ⟨rfl, p3⟩ := seqLoop_success l3 _ 0 s2 _ s3 (by rw [p2.2.1]; omega) p2 e3
  dsimp only at e
  rw [if_neg (fun h => h rfl)] at e
  exact (seqLoop_success l4 _ 0 s3 _ s' (by rw [p3.2.2.1]; omega) p3 e).1

theorem proper_defined {st : SubjectToStatus} (h : Proper st) : st ≠ ST_UNDEFINED := by
  rcases h with h | h | h <;> rw [h] <;> decide

theorem setupAuxiliaryWorkingSet_success {sq : K → K} {s s' : QPC K} (h : Loose s) {wB wC : WS} (hB : ∀ i < s.nV, Proper (wB.getStatus i))
    (hC : ∀ i < s.nC, Proper (wC.getStatus i)) (uB : ∀ i < s.nV, s.bounds.type i = ST_UNBOUNDED → wB.getStatus i = ST_INACTIVE)
    (uC : ∀ i < s.nC, s.cons.type i = ST_UNBOUNDED → wC.getStatus i = ST_INACTIVE) {r : ReturnValue}
    (e : setupAuxiliaryWorkingSet sq s (some wB) (some wC) true = .ok (r, s')) : r = SUCCESSFUL_RETURN := by
  unfold setupAuxiliaryWorkingSet at e
  split at e
  · next hu =>
    exfalso
    obtain ⟨i, hi, hu⟩ := List.any_eq_true.1 hu
    have hi := List.mem_range.1 hi
    rw [Bool.or_eq_true] at hu
    rcases hu with hu | hu
    · have hu := eq_of_beq hu
      rw [WS.getStatus_of_lt (by rw [h.shape.nB]; exact hi)] at hu
      rcases h.shape.okB.status_cases (by rw [h.shape.nB]; exact hi) with h | h | h <;> rw [h] at hu <;> cases hu
    · exact proper_defined (hB i hi) (eq_of_beq hu)
  split at e
  · next hu =>
    exfalso
    obtain ⟨i, hi, hu⟩ := List.any_eq_true.1 hu
    have hi := List.mem_range.1 hi
    rw [Bool.or_eq_true] at hu
    rcases hu with hu | hu
    · have hu := eq_of_beq hu
      rw [WS.getStatus_of_lt (by rw [h.shape.nC]; exact hi)] at hu
      rcases h.shape.okC.status_cases (by rw [h.shape.nC]; exact hi) with h | h | h <;> rw [h] at hu <;> cases hu
    · exact proper_defined (hC i hi) (eq_of_beq hu)
  split at e
  · cases e; rfl
  · dsimp only at e
    obtain ⟨⟨r1, t⟩, e1, e⟩ := Res.bind_eq_ok.1 e
    have := auxLoops_success (s := s.plainLI) ⟨⟨h.shape.okB, h.shape.okC, h.shape.nB, h.shape.nC, h.shape.size⟩, h.accepts, h.looseB, h.looseC⟩ hB hC uB uC e1
    subst this
    dsimp only at e
    rw [if_neg (fun h => h rfl)] at e
    cases e; rfl

/-! ### Data of the auxiliary QP -/

theorem hessian_of_gradient {s s' : QPC K} (h : setupAuxiliaryQPgradient s = .ok s') : ¬ s.scalarH → s.H ≠ none := by
  intro hs hH
  obtain ⟨b, e, _⟩ := Res.bind_eq_ok.1 h
  unfold QPB.setupAuxiliaryQPgradient at e
  have h0 : s.hessianType ≠ HST_ZERO := fun h => hs (Or.inl h)
  have h1 : s.hessianType ≠ HST_IDENTITY := fun h => hs (Or.inr h)
  split at e
  · next h => exact h0 h
  · next h => exact h1 h
  · obtain ⟨H, e, _⟩ := Res.bind_eq_ok.1 e
    unfold QPB.getH at e
    rw [hH] at e
    cases e

theorem properB' {s : QPC K} (hs : s.Shape) {i : Nat} (hi : i < s.nV) : Proper (s.bounds.getStatus i) := by
  have hn : i < s.bounds.n := by rw [hs.nB]; exact hi
  rw [WS.getStatus_of_lt hn]
  exact hs.okB.status_cases hn

theorem properC' {s : QPC K} (hs : s.Shape) {i : Nat} (hi : i < s.nC) : Proper (s.cons.getStatus i) := by
  have hn : i < s.cons.n := by rw [hs.nC]; exact hi
  rw [WS.getStatus_of_lt hn]
  exact hs.okC.status_cases hn

/-- The data are adapted to the iterates; iterates and multipliers of active members are kept. -/
theorem setupAuxiliaryQPdata_spec {s s' : QPC K} (hs : s.Shape) (e : setupAuxiliaryQPdata s = .ok s') :
    Spec.Consistent s' ∧ (∃ g l u lA uA y Ax al au, s' = { s with g := g, lb := l, ub := u, lbA := lA, ubA := uA, y := y, Ax := Ax, Axl := al, Axu := au }) ∧
      (∀ i < s.nV, s.bounds.status i ≠ ST_INACTIVE → s'.y i = s.y i) ∧ (∀ k < s.nC, s.cons.status k ≠ ST_INACTIVE → s'.y (s.nV + k) = s.y (s.nV + k)) ∧
      (∀ i < s.nV, auxLimits s.options none (s.bounds.type i) (s.bounds.status i) (s.x i) (s.x i) (s.lb i) (s.ub i) = some (s'.lb i, s'.ub i)) ∧
      ∀ k < s.nC, auxLimits s.options none (s.cons.type k) (s.cons.status k) (s.prodA s.x k) (s.prodA s.x k) (s.lbA k) (s.ubA k) = some (s'.lbA k, s'.ubA k) := by
  unfold setupAuxiliaryQPdata at e
  dsimp only at e
  generalize hy : (fun i => if i < s.nV then (if s.bounds.getStatus i = ST_INACTIVE then 0 else s.y i)
    else if i - s.nV < s.nC ∧ s.cons.getStatus (i - s.nV) = ST_INACTIVE then 0 else s.y i) = y at e
  obtain ⟨s1, e1, e⟩ := Res.bind_eq_ok.1 e
  have hH := hessian_of_gradient e1
  obtain ⟨g, e1', hg⟩ := setupAuxiliaryQPgradient_spec hH
  rw [e1'] at e1
  cases e1
  cases e
  have key : ∀ t : QPC K, t = { s with y := y, g := g, Ax := s.prodA s.x, Axl := s.prodA s.x, Axu := s.prodA s.x } →
      ∃ l u lA uA al au, (setupAuxiliaryQPbounds t none).2 = { t with lb := l, ub := u, lbA := lA, ubA := uA, Axl := al, Axu := au } ∧
      (∀ i < s.nV, auxLimits s.options none (s.bounds.type i) (s.bounds.getStatus i) (s.x i) (s.x i) (s.lb i) (s.ub i) = some (l i, u i)) ∧
      (∀ i < s.nC, auxLimits s.options none (s.cons.type i) (s.cons.getStatus i) (s.prodA s.x i) (s.prodA s.x i) (s.lbA i) (s.ubA i) = some (lA i, uA i) ∧
        al i = s.prodA s.x i - lA i ∧ au i = uA i - s.prodA s.x i) := by
    rintro t rfl
    unfold setupAuxiliaryQPbounds
    obtain ⟨l, u, e1, h1, _⟩ := auxBoundsB_spec none s.nV 0 { s with y := y, g := g, Ax := s.prodA s.x, Axl := s.prodA s.x, Axu := s.prodA s.x }
      (fun j _ hj => properB' hs (by omega))
    obtain ⟨lA, uA, al, au, e2, h2, _⟩ := auxBoundsC_spec none s.nC 0 { s with y := y, g := g, Ax := s.prodA s.x, Axl := s.prodA s.x, Axu := s.prodA s.x, lb := l, ub := u }
      (fun j _ hj => properC' hs (by omega))
    refine ⟨l, u, lA, uA, al, au, ?_, fun i hi => h1 i (by omega) (by omega), fun i hi => h2 i (by omega) (by omega)⟩
    simp only [Option.map_none]
    rw [e1]
    dsimp only
    rw [if_neg (fun h => h rfl), e2]
  obtain ⟨l, u, lA, uA, al, au, eq, hB, hC⟩ := key _ rfl
  have y1 : ∀ i < s.nV, y i = if s.bounds.getStatus i = ST_INACTIVE then 0 else s.y i := by
    intro i hi; rw [← hy]; exact if_pos hi
  have y2 : ∀ k < s.nC, y (s.nV + k) = if s.cons.getStatus k = ST_INACTIVE then 0 else s.y (s.nV + k) := by
    intro k hk
    rw [← hy]
    show (if s.nV + k < s.nV then _ else _) = _
    rw [if_neg (by omega), Nat.add_sub_cancel_left]
    by_cases h : s.cons.getStatus k = ST_INACTIVE
    · rw [if_pos ⟨hk, h⟩, if_pos h]
    · rw [if_neg (fun h' => h h'.2), if_neg h]
  have gB : ∀ i < s.nV, s.bounds.getStatus i = s.bounds.status i := fun i hi => WS.getStatus_of_lt (by rw [hs.nB]; exact hi)
  have gC : ∀ i < s.nC, s.cons.getStatus i = s.cons.status i := fun i hi => WS.getStatus_of_lt (by rw [hs.nC]; exact hi)
  have hrow : ∀ k, s.prodA s.x k = ∑ j ∈ range s.nV, s.A k j * s.x j := fun k => by unfold prodA; rw [sumTo_eq]
  have eq' : (setupAuxiliaryQPbounds ({ s with y := y, g := g, Ax := s.prodA s.x, Axl := s.prodA s.x, Axu := s.prodA s.x } : QPC K) none).2 =
      { s with g := g, lb := l, ub := u, lbA := lA, ubA := uA, y := y, Ax := s.prodA s.x, Axl := al, Axu := au } := eq
  refine ⟨?_, ⟨g, l, u, lA, uA, y, s.prodA s.x, al, au, eq'⟩, ?_, ?_, ?_, ?_⟩
  · have goal : Spec.Consistent ({ s with g := g, lb := l, ub := u, lbA := lA, ubA := uA, y := y, Ax := s.prodA s.x, Axl := al, Axu := au } : QPC K) := by
      refine ⟨hg, fun i hi h => ?_, fun k hk h => ?_, fun i hi h => ?_, fun i hi h => ?_, fun k hk h => ?_, fun k hk h => ?_, fun k hk => hrow k,
        fun k hk => (hC k hk).2.1, fun k hk => (hC k hk).2.2⟩
      · show y i = 0
        rw [y1 i hi, gB i hi]; exact if_pos h
      · show y (s.nV + k) = 0
        rw [y2 k hk, gC k hk]; exact if_pos h
      · have := hB i hi
        rw [gB i hi, show s.bounds.status i = ST_LOWER from h] at this
        simp only [auxLimits, Option.some.injEq, Prod.mk.injEq] at this
        exact this.1
      · have := hB i hi
        rw [gB i hi, show s.bounds.status i = ST_UPPER from h] at this
        simp only [auxLimits, Option.some.injEq, Prod.mk.injEq] at this
        exact this.2
      · have := (hC k hk).1
        rw [gC k hk, show s.cons.status k = ST_LOWER from h] at this
        simp only [auxLimits, Option.some.injEq, Prod.mk.injEq] at this
        rw [← hrow]; exact this.1
      · have := (hC k hk).1
        rw [gC k hk, show s.cons.status k = ST_UPPER from h] at this
        simp only [auxLimits, Option.some.injEq, Prod.mk.injEq] at this
        rw [← hrow]; exact this.2
    exact eq' ▸ goal
  · intro i hi h
    have : ∀ t : QPC K, t = { s with g := g, lb := l, ub := u, lbA := lA, ubA := uA, y := y, Ax := s.prodA s.x, Axl := al, Axu := au } → t.y i = s.y i := by
      rintro t rfl
      show y i = s.y i
      rw [y1 i hi, gB i hi, if_neg h]
    exact this _ eq'
  · intro k hk h
    have : ∀ t : QPC K, t = { s with g := g, lb := l, ub := u, lbA := lA, ubA := uA, y := y, Ax := s.prodA s.x, Axl := al, Axu := au } → t.y (s.nV + k) = s.y (s.nV + k) := by
      rintro t rfl
      show y (s.nV + k) = s.y (s.nV + k)
      rw [y2 k hk, gC k hk, if_neg h]
    exact this _ eq'
  · intro i hi
    have : ∀ t : QPC K, t = { s with g := g, lb := l, ub := u, lbA := lA, ubA := uA, y := y, Ax := s.prodA s.x, Axl := al, Axu := au } →
        auxLimits s.options none (s.bounds.type i) (s.bounds.status i) (s.x i) (s.x i) (s.lb i) (s.ub i) = some (t.lb i, t.ub i) := by
      rintro t rfl
      rw [← gB i hi]
      exact hB i hi
    exact this _ eq'
  · intro k hk
    have : ∀ t : QPC K, t = { s with g := g, lb := l, ub := u, lbA := lA, ubA := uA, y := y, Ax := s.prodA s.x, Axl := al, Axu := au } →
        auxLimits s.options none (s.cons.type k) (s.cons.status k) (s.prodA s.x k) (s.prodA s.x k) (s.lbA k) (s.ubA k) = some (t.lbA k, t.ubA k) := by
      rintro t rfl
      rw [← gC k hk]
      exact (hC k hk).1
    exact this _ eq'

/-! ### The guess as a whole -/

theorem Adopted.of_eq {sq : K → K} {upd : Bool} {s0 t s : QPC K} {wB wC : WS} {tB tC : Nat → SubjectToType} (h : Adopted sq upd s0 t wB wC tB tC) (hb : s.bounds = t.bounds)
    (hc : s.cons = t.cons) (hA : s.A = t.A) (he : s.options.epsLITests = t.options.epsLITests) (hn : s.nV = t.nV) (hm : s.nC = t.nC) :
    Adopted sq upd s0 s wB wC tB tC := by
  have st : Stage t s := ⟨fun _ _ => by rw [hb], fun _ _ => by rw [hc], hA.symm, he.symm⟩
  refine ⟨?_, ?_, ?_, ?_, ?_, ?_⟩
  · rw [hn, hb]; exact h.onlyB
  · rw [hm, hc]; exact h.onlyC
  · rw [hn]; intro i hi hg; rw [hb]; exact (h.allB i hi hg).imp_right (LeftOutB.mono st)
  · rw [hm]; intro i hi hg; rw [hc]; exact (h.allC i hi hg).imp_right (LeftOutC.mono st)
  · rw [hn, hb]; exact h.eqB
  · rw [hm]; intro i hi hg; rw [hc]; exact (h.eqC i hi hg).imp_right (LeftOutC.mono st)

/-- Kind of a member with limits `l`, `u` when the working set is set up from scratch. -/
def kindOf (o : Options K) (l u : K) : SubjectToType :=
  if l < -INFTY + o.boundTolerance ∧ u > INFTY - o.boundTolerance ∧ o.enableFarBounds = false then ST_UNBOUNDED
  else if o.enableEqualities = true ∧ l > u - o.boundTolerance then ST_EQUALITY
  else ST_BOUNDED

/-- The object with an empty working set, its types determined afresh and the factors of the empty working set. -/
def cleared (s : QPC K) : QPC K :=
  let s := { s with
    status := QPS_PREPARINGAUXILIARYQP
    bounds := WS.init s.nV
    cons := WS.init s.nC }
  let s := s.setupSubjectToType
  let s := { s with
    bounds := s.bounds.setupAllFree
    cons := s.cons.setupAllFree }
  s.setupTQfactorisation

/-- From here the members of a guess are added one by one if the working set is set up afresh. -/
def emptied (s : QPC K) : QPC K := s.cleared.plainLI

theorem setupAuxiliaryQP_afresh {sq : K → K} {s s' : QPC K} (hs : s.Shape) {wB wC : WS}
    (hB : ∀ i < s.nV, Proper (wB.getStatus i)) (hC : ∀ i < s.nC, Proper (wC.getStatus i)) (hr : s.shallRefactorise wB wC = true)
    (uB : ∀ i < s.nV, kindOf s.options (s.lb i) (s.ub i) = ST_UNBOUNDED → wB.getStatus i = ST_INACTIVE)
    (uC : ∀ i < s.nC, kindOf s.options (s.lbA i) (s.ubA i) = ST_UNBOUNDED → wC.getStatus i = ST_INACTIVE) {r : ReturnValue}
    (e : setupAuxiliaryQP sq s (some wB) (some wC) = .ok (r, s')) :
    Adopted sq false s.emptied s' wB wC (fun i => kindOf s.options (s.lb i) (s.ub i)) (fun i => kindOf s.options (s.lbA i) (s.ubA i)) ∧ s'.Shape ∧
      (r = SUCCESSFUL_RETURN → Spec.Consistent s') := by
  unfold setupAuxiliaryQP at e
  dsimp only [Option.isNone_some, Bool.and_self, Option.getD_some] at e
  rw [if_neg (by decide)] at e
  have hr' : ({ s with status := QPS_PREPARINGAUXILIARYQP } : QPC K).shallRefactorise wB wC = true := hr
  rw [if_pos hr'] at e
  obtain ⟨⟨r0, t⟩, e0, e⟩ := Res.bind_eq_ok.1 e
  have e0 : setupAuxiliaryWorkingSet sq s.cleared (some wB) (some wC) true = .ok (r0, t) := e0
  unfold emptied
  generalize hp : s.cleared = p at e0
  dsimp only at e
  have pshape : p.Shape := by
    rw [← hp]
    exact ⟨WS.setupAllFree_ok rfl rfl, WS.setupAllFree_ok rfl rfl, rfl, rfl, hs.size⟩
  have pst : p.status = QPS_PREPARINGAUXILIARYQP := by rw [← hp]; rfl
  have pB : ∀ i, p.bounds.status i = ST_INACTIVE := by rw [← hp]; exact fun _ => rfl
  have pC : ∀ i, p.cons.status i = ST_INACTIVE := by rw [← hp]; exact fun _ => rfl
  have ptB : ∀ i < s.nV, p.bounds.type i = kindOf s.options (s.lb i) (s.ub i) := by
    intro i hi
    rw [← hp]
    show (if i < s.nV then QPB.typeOf _ _ _ i else _) = _
    rw [if_pos hi]
    unfold QPB.typeOf kindOf
    dsimp only
    split
    · rfl
    · by_cases h : s.options.enableEqualities = true ∧ s.lb i > s.ub i - s.options.boundTolerance
      · rw [if_pos h, if_pos ⟨h.1, h.2, h.2⟩]
      · rw [if_neg h, if_neg (fun h' => h ⟨h'.1, h'.2.1⟩)]
  have ptC : ∀ i < s.nC, p.cons.type i = kindOf s.options (s.lbA i) (s.ubA i) := by
    intro i hi
    rw [← hp]
    show (if i < s.nC then typeOfC _ _ _ i else _) = _
    rw [if_pos hi]
    unfold typeOfC kindOf
    dsimp only
    rw [if_neg (show ¬ ((WS.init s.nC).type i = ST_DISABLED) by intro h; cases h)]
    split
    · rfl
    · by_cases h : s.options.enableEqualities = true ∧ s.lbA i > s.ubA i - s.options.boundTolerance
      · rw [if_pos h, if_pos ⟨h.1, h.2, h.2⟩]
      · rw [if_neg h, if_neg (fun h' => h ⟨h'.1, h'.2.1⟩)]
  have pn : p.nV = s.nV := by rw [← hp]; rfl
  have pm : p.nC = s.nC := by rw [← hp]; rfl
  have r0s : r0 = SUCCESSFUL_RETURN := by
    refine setupAuxiliaryWorkingSet_success (s := p) ⟨pshape, by unfold noChanges; rw [pst]; rfl, fun j _ _ => pB j, fun j _ _ => pC j⟩
      (by rw [pn]; exact hB) (by rw [pm]; exact hC) ?_ ?_ e0
    · rw [pn]; intro i hi h; rw [ptB i hi] at h; exact uB i hi h
    · rw [pm]; intro i hi h; rw [ptC i hi] at h; exact uC i hi h
  subst r0s
  obtain ⟨a, b, c⟩ := setupAuxiliaryWorkingSet_guess pshape (by rw [pn]; exact hB) (by rw [pm]; exact hC) (fun _ => ⟨fun i _ => pB i, fun i _ => pC i⟩)
    (fun h => by cases h) e0
  have tn : t.nV = s.nV := (still_nV c).trans pn
  have tm : t.nC = s.nC := (still_nC c).trans pm
  have a' : Adopted sq false p.plainLI t wB wC (fun i => kindOf s.options (s.lb i) (s.ub i)) (fun i => kindOf s.options (s.lbA i) (s.ubA i)) := by
    refine ⟨?_, ?_, a.allB, a.allC, ?_, ?_⟩
    · intro i hi h; have := a.onlyB i hi h; rwa [ptB i (by rw [← tn]; exact hi)] at this
    · intro i hi h; have := a.onlyC i hi h; rwa [ptC i (by rw [← tm]; exact hi)] at this
    · intro i hi h; exact a.eqB i hi (by rw [ptB i (by rw [← tn]; exact hi)]; exact h)
    · intro i hi h; exact a.eqC i hi (by rw [ptC i (by rw [← tm]; exact hi)]; exact h)
  obtain ⟨⟨r1, t1⟩, e1, e⟩ := Res.bind_eq_ok.1 e
  obtain ⟨⟨R, Q, ty, o, rfl⟩, _⟩ := computeProjectedCholesky_fields e1
  dsimp only at e
  split at e
  · cases e
    exact ⟨Adopted.of_eq a' rfl rfl rfl rfl rfl rfl, ⟨b.okB, b.okC, b.nB, b.nC, b.size⟩, fun h => absurd h (by decide)⟩
  · obtain ⟨t2, e2, e⟩ := Res.bind_eq_ok.1 e
    cases e
    have key := fun hh => setupAuxiliaryQPdata_spec (hs := hh) e2
    obtain ⟨k1, ⟨g, l, u, lA, uA, y, Ax, al, au, k2⟩, _⟩ := key ⟨b.okB, b.okC, b.nB, b.nC, b.size⟩
    refine ⟨Adopted.of_eq a' (by rw [k2]) (by rw [k2]) (by rw [k2]) (by rw [k2]) (by rw [k2]) (by rw [k2]), ?_, fun _ => k1⟩
    rw [k2]
    exact ⟨b.okB, b.okC, b.nB, b.nC, b.size⟩

theorem setupAuxiliaryQP_update {sq : K → K} {s s' : QPC K} (hs : s.Shape) {wB wC : WS}
    (hB : ∀ i < s.nV, Proper (wB.getStatus i)) (hC : ∀ i < s.nC, Proper (wC.getStatus i)) (hr : s.shallRefactorise wB wC = false)
    (hz : s.options.enableNZCTests = false ∨ s.Extended wB wC) (hd : s.options.enableDropInfeasibles = false) (ht : s.isTrivial (some wB) (some wC) = false)
    (hok : ∃ t, setupAuxiliaryWorkingSet sq { s with status := QPS_PREPARINGAUXILIARYQP } (some wB) (some wC) false = .ok (SUCCESSFUL_RETURN, t))
    {r : ReturnValue} (e : setupAuxiliaryQP sq s (some wB) (some wC) = .ok (r, s')) :
    Adopted sq true ({ s with status := QPS_PREPARINGAUXILIARYQP } : QPC K).plainLI s' wB wC s.bounds.type s.cons.type ∧ s'.Shape ∧ r = SUCCESSFUL_RETURN ∧ Spec.Consistent s' := by
  unfold setupAuxiliaryQP at e
  dsimp only [Option.isNone_some, Bool.and_self, Option.getD_some] at e
  rw [if_neg (by decide)] at e
  have hr' : ({ s with status := QPS_PREPARINGAUXILIARYQP } : QPC K).shallRefactorise wB wC = false := hr
  rw [if_neg (by rw [hr']; decide)] at e
  obtain ⟨t, e0⟩ := hok
  rw [e0, Res.bind_ok] at e
  dsimp only at e
  obtain ⟨a, b, c⟩ := setupAuxiliaryWorkingSet_guess (s := { s with status := QPS_PREPARINGAUXILIARYQP }) ⟨hs.okB, hs.okC, hs.nB, hs.nC, hs.size⟩ hB hC
    (fun h => by cases h) (fun _ => ⟨hz, hd, ht⟩) e0
  obtain ⟨t2, e2, e⟩ := Res.bind_eq_ok.1 e
  cases e
  obtain ⟨k1, ⟨g, l, u, lA, uA, y, Ax, al, au, k2⟩, _⟩ := setupAuxiliaryQPdata_spec b e2
  refine ⟨Adopted.of_eq a (by rw [k2]) (by rw [k2]) (by rw [k2]) (by rw [k2]) (by rw [k2]) (by rw [k2]), ?_, rfl, k1⟩
  rw [k2]
  exact ⟨b.okB, b.okC, b.nB, b.nC, b.size⟩

/-! ### What linear dependence means -/

/-- The rotations and roots of the change are exact; a member that becomes active has passed the test for linear dependence. -/
def ExactMove (sq : K → K) (upd : Bool) (s : QPC K) : Move → Prop
  | .fix i _ => s.checkLIBound i = .ok true ∧ s.CleanAddB sq i upd
  | .activate i _ => s.checkLIConstraint i = .ok true ∧ s.CleanAddC sq i upd
  | .free i => s.CleanRemoveB sq i false
  | .deactivate i => s.CleanRemoveC sq i false
  | .relax _ => True

theorem nZ_of_checkB {s : QPC K} (hf : s.options.enableFullLITests = false) {i : Nat} (h : s.checkLIBound i = .ok true) : 0 < s.nZ := by
  unfold checkLIBound at h
  rw [if_neg (by rw [hf]; decide)] at h
  obtain ⟨j, hj, _⟩ := List.any_eq_true.1 (Res.ok.inj h)
  exact (Nat.zero_le j).trans_lt (List.mem_range.1 hj)

theorem nZ_of_checkC {s : QPC K} (hf : s.options.enableFullLITests = false) {i : Nat} (h : s.checkLIConstraint i = .ok true) : 0 < s.nZ := by
  unfold checkLIConstraint at h
  rw [if_neg (by rw [hf]; decide)] at h
  obtain ⟨j, hj, _⟩ := List.any_eq_true.1 (Res.ok.inj h)
  exact (Nat.zero_le j).trans_lt (List.mem_range.1 hj)

theorem ExactMove.base {sq : K → K} {upd : Bool} {s s' : QPC K} (h : s.Base) (hc : upd = true → s.Chol) (hf : s.options.enableFullLITests = false)
    {m : Move} (hv : m.Valid upd s) (he : ExactMove sq upd s m)
    (e : m.run sq upd s = .ok (SUCCESSFUL_RETURN, s')) :
    s'.Base ∧ (upd = true → s'.Chol) ∧ s'.options.enableFullLITests = s.options.enableFullLITests := by
  cases m with
  | fix i st =>
    have hz := nZ_of_checkB hf he.1
    have key : i ∈ s.bounds.free ∧ addBoundUpdate sq s i st upd = .ok (SUCCESSFUL_RETURN, s') := by
      have e : addBoundAs sq s i st upd = .ok (SUCCESSFUL_RETURN, s') := e
      unfold addBoundAs at e
      cases upd with
      | true =>
        rw [if_pos rfl] at e
        unfold addBound at e
        split at e
        · next hk => cases e; exact absurd rfl (addBoundCheck_ne hk)
        · next hk =>
          unfold ensureLIBound at e
          rw [he.1, Res.bind_ok, if_pos rfl, Res.bind_ok] at e
          dsimp only at e
          rw [if_pos rfl] at e
          exact ⟨free_of_checkB h.shape hv.1 hk, e⟩
      | false =>
        rw [if_neg (by decide)] at e
        unfold addBoundPlain at e
        split at e
        · next hk => cases e; exact absurd rfl (addBoundCheck_ne hk)
        · next hk => exact ⟨free_of_checkB h.shape hv.1 hk, e⟩
    obtain ⟨T, Q, R, k1, k2, k3, k4⟩ := addBoundUpdate_spec h.shape h.tq h.sym key.1 hv.2 hz hc he.2
    have e := key.2
    rw [k1] at e
    simp only [Res.ok.injEq, Prod.mk.injEq, true_and] at e
    subst e
    exact ⟨⟨k2, k3, h.sym⟩, k4, rfl⟩
  | activate i st =>
    have hz := nZ_of_checkC hf he.1
    have key : i ∈ s.cons.free ∧ addConstraintUpdate sq s i st upd = .ok (SUCCESSFUL_RETURN, s') := by
      have e : addConstraintAs sq s i st upd = .ok (SUCCESSFUL_RETURN, s') := e
      unfold addConstraintAs at e
      cases upd with
      | true =>
        rw [if_pos rfl] at e
        unfold addConstraint at e
        split at e
        · next hk => cases e; exact absurd rfl (addConstraintCheck_ne hk)
        · next hk =>
          unfold ensureLIConstraint at e
          rw [he.1, Res.bind_ok, if_pos rfl, Res.bind_ok] at e
          dsimp only at e
          rw [if_pos rfl] at e
          exact ⟨free_of_checkC h.shape hv.1 hk, e⟩
      | false =>
        rw [if_neg (by decide)] at e
        unfold addConstraintPlain at e
        split at e
        · next hk => cases e; exact absurd rfl (addConstraintCheck_ne hk)
        · next hk => exact ⟨free_of_checkC h.shape hv.1 hk, e⟩
    obtain ⟨T, Q, R, k1, k2, k3, k4⟩ := addConstraintUpdate_spec h.shape h.tq h.sym key.1 hv.2 hz hc he.2
    have e := key.2
    rw [k1] at e
    simp only [Res.ok.injEq, Prod.mk.injEq, true_and] at e
    subst e
    exact ⟨⟨k2, k3, h.sym⟩, k4, rfl⟩
  | free i =>
    obtain ⟨rfl, hv⟩ := hv
    have hlt : i < s.bounds.n := by rw [h.shape.nB]; exact hv
    have e : removeBound sq s i true false false = .ok (SUCCESSFUL_RETURN, s') := e
    have hF : s.Facs := ⟨h.shape, h.tq, hc rfl, h.sym⟩
    have e' := e
    unfold removeBound at e
    split at e
    · cases e
    next hst =>
    split at e
    · cases e
    rw [if_neg (by decide)] at e
    rw [WS.getStatus_of_lt hlt] at hst
    have hm := h.shape.okB.mem_fixed_iff.2 ⟨hlt, (h.shape.okB.status_cases hlt).resolve_left hst⟩
    have k := (removeBoundUpdate_spec hF hm he e).1
    exact ⟨⟨k.shape, k.tq, k.sym⟩, fun _ => k.chol, still_full (removeBound_ws hF.shape hm e').1.still⟩
  | deactivate i =>
    obtain ⟨rfl, hv⟩ := hv
    have e : removeConstraint sq s i true false false = .ok (SUCCESSFUL_RETURN, s') := e
    have hF : s.Facs := ⟨h.shape, h.tq, hc rfl, h.sym⟩
    have e' := e
    unfold removeConstraint at e
    split at e
    · cases e
    split at e
    · cases e
    split at e
    · cases e
    next hm =>
    rw [if_neg (by decide)] at e
    have hm : i ∈ s.cons.fixed := List.contains_iff_mem.1 (by simpa using hm)
    have k := (removeConstraintUpdate_spec hF hm he e).1
    exact ⟨⟨k.shape, k.tq, k.sym⟩, fun _ => k.chol, still_full (removeConstraint_ws hF.shape hm e').1.still⟩
  | relax i =>
    cases e
    exact ⟨⟨⟨h.shape.okB, ⟨h.shape.okC.perm, h.shape.okC.free, h.shape.okC.fixed⟩, h.shape.nB, h.shape.nC, h.shape.size⟩, ⟨h.tq.le, h.tq.tq⟩, h.sym⟩, hc, rfl⟩

theorem Base.nullBasis {s : QPC K} (h : s.Base) : NullBasis s := by
  have p : ({ s with hessianType := HST_ZERO } : QPC K).Pos :=
    Facs.pos ⟨⟨h.shape.okB, h.shape.okC, h.shape.nB, h.shape.nC, h.shape.size⟩, ⟨h.tq.le, h.tq.tq⟩, (fun hg => by cases hg), h.sym⟩
  have hsum : ∀ f : Nat → K, ∑ r ∈ range s.nFR, f (s.fr r) = ∑ i ∈ s.F, f i := fun f => h.shape.okB.sumFree f
  refine ⟨?_, fun j hj j' hj' => ?_, fun k hk j hj => ?_⟩
  · have := h.tq.le
    have e1 : s.nAC = s.cons.fixed.length := rfl
    have e2 : s.nFR = s.bounds.free.length := rfl
    have e3 : s.nZ = s.nFR - s.nAC := rfl
    omega
  · have e3 : s.nZ = s.nFR - s.nAC := rfl
    exact (hsum fun i => s.Q i j * s.Q i j').symm.trans (p.cols j (show j < s.nFR by omega) j' (show j' < s.nFR by omega))
  · obtain ⟨q, hq, rfl⟩ := List.getElem_of_mem hk
    have := p.null q hq j hj
    refine (hsum fun i => s.A _ i * s.Q i j).symm.trans ?_
    rw [show s.cons.fixed[q] = s.ac q by unfold ac WS.fx; rw [List.getD_eq_getElem _ _ hq]]
    exact this

/-- If the changes made on the way to `t` are exact, dependence at `t` refers to the null space of the members that are active at `t`. -/
theorem Reached.nullBasis {sq : K → K} {upd : Bool} {s0 t : QPC K} (h0 : s0.Base) (hc : upd = true → s0.Chol)
    (hf : s0.options.enableFullLITests = false) {l : List (QPC K × Move)} (h : Reached sq upd s0 l t)
    (he : ∀ c ∈ l, ExactMove sq upd c.1 c.2) : NullBasis t := by
  suffices t.Base ∧ (upd = true → t.Chol) ∧ t.options.enableFullLITests = s0.options.enableFullLITests from this.1.nullBasis
  induction h with
  | start => exact ⟨h0, hc, rfl⟩
  | @step l t t' m h hv e ih =>
    obtain ⟨a, b, c⟩ := ih (fun c hc => he c (List.mem_cons_of_mem _ hc))
    obtain ⟨a', b', c'⟩ := ExactMove.base a b (by rw [c]; exact hf) hv (he _ List.mem_cons_self) e
    exact ⟨a', b', c'.trans c⟩

theorem emptied_base {s : QPC K} (hs : s.Shape) (hsym : s.SymH) : s.emptied.Base := by
  have b : s.cleared.Base := setupTQfactorisation_base ⟨WS.setupAllFree_ok rfl rfl, WS.setupAllFree_ok rfl rfl, rfl, rfl, hs.size⟩ hsym rfl
  exact ⟨⟨b.shape.okB, b.shape.okC, b.shape.nB, b.shape.nC, b.shape.size⟩, ⟨b.tq.le, b.tq.tq⟩, b.sym⟩

end QPC
end QpOASES
