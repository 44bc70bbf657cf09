import Verif.Spec.Factors
import Verif.Props.C34_General

/-!
C28: the factors of the general solver belong to its working set.
-/
namespace QpOASES.Props
open Finset Spec QPC ReturnValue SubjectToStatus SubjectToType HessianType QProblemStatus
open QPB (lowerOf upperOf)

set_option linter.unusedSectionVars false

variable {K : Type} [Field K] [LinearOrder K] [IsStrictOrderedRing K]

/-- The statement of C28 about one state: the columns of `T` are stored at the right end of a square array, and `R` is kept unless the
Hessian is zero or the identity. -/
structure FactorsOf (s : QPC K) : Prop where
  tq : FactorsTQ s.bounds.free s.cons.fixed s.A s.Q (fun k c => s.T k (s.sizeT - s.nAC + c))
  chol : s.hessianType ≠ HST_ZERO → s.hessianType ≠ HST_IDENTITY → ∃ H, s.H = some H ∧ FactorsR s.bounds.free (s.nFR - s.nAC) H s.Q s.R

theorem FactorsOf.of_facs {s : QPC K} (h : s.Facs) : FactorsOf s := by
  have p := h.pos
  have hw := h.shape.okB
  have hsum : ∀ f : Nat → K, ∑ r ∈ range s.nFR, f (s.fr r) = ∑ i ∈ s.F, f i := fun f => hw.sumFree f
  refine ⟨⟨p.le, fun i hi i' hi' => ?_, fun j hj j' hj' => ?_, fun k hk j hj => ?_, fun k hk c hc => ?_⟩, fun h1 h2 => ?_⟩
  · exact h.tq.tq.orth i (List.mem_toFinset.2 hi) i' (List.mem_toFinset.2 hi')
  · exact (hsum fun i => s.Q i j * s.Q i j').symm.trans (p.cols j hj j' hj')
  · exact (hsum fun i => s.A (s.ac k) i * s.Q i j).symm.trans (p.null k hk j hj)
  · refine (hsum fun i => s.A (s.ac k) i * s.Q i (s.nZ + c)).symm.trans ?_
    split
    · rename_i hh; exact p.lower k hk c hc hh
    · rename_i hh; exact p.upper k hk c hc (not_le.1 hh)
  · obtain ⟨H, e, hg, _⟩ := h.chol (by unfold general; simp [h1, h2])
    refine ⟨H, e, ?_⟩
    have key : ∀ a b, a ≤ b → b < s.nZ → ∑ q ∈ range s.nZ, (if q ≤ a then s.R q a else 0) * (if q ≤ b then s.R q b else 0) =
        ∑ i ∈ s.bounds.free.toFinset, ∑ i' ∈ s.bounds.free.toFinset, s.Q i a * H i i' * s.Q i' b := by
      intro a b hab hb
      have e1 : ∑ q ∈ range s.nZ, (if q ≤ a then s.R q a else 0) * (if q ≤ b then s.R q b else 0) = ∑ q ∈ range (a+1), s.R q a * s.R q b := by
        symm
        rw [← sum_subset (range_subset_range.2 (show a + 1 ≤ s.nZ by omega))]
        · refine sum_congr rfl fun q hq => ?_
          have : q ≤ a := by rw [mem_range] at hq; omega
          rw [if_pos this, if_pos (this.trans hab)]
        · intro q _ hq
          rw [mem_range] at hq
          rw [if_neg (by omega), zero_mul]
      rw [e1, hg a b hab hb]
      unfold projH F
      refine sum_congr rfl fun i _ => ?_
      rw [mul_sum]
      exact sum_congr rfl fun i' _ => by ring
    intro a ha b hb
    rcases le_total a b with hab | hab
    · exact key a b hab hb
    · have := key b a hab ha
      refine (sum_congr rfl fun q _ => mul_comm _ _).trans (this.trans ?_)
      rw [sum_comm]
      refine sum_congr rfl fun i hi => sum_congr rfl fun i' hi' => ?_
      have hlt : ∀ j ∈ s.bounds.free.toFinset, j < s.nV := fun j hj => by
        rw [← h.shape.nB]; exact hw.lt_free (List.mem_toFinset.1 hj)
      rw [h.sym H e i (hlt i hi) i' (hlt i' hi')]
      ring

/-- Histories of working set changes: the factors are set up for an empty set of active constraints, then bounds and constraints enter and
leave.  `Clean…`: the rotations and roots of that change are exact, which they are in exact arithmetic unless a number strictly between
zero and a tolerance is taken for zero. -/
inductive ChangesGeneral (sq : K → K) : QPC K → Prop
  | start {s s' : QPC K} (hs : s.Shape) (hsym : s.SymH) (hac : s.nAC = 0) (hH : s.general = true → ∃ H, s.H = some H)
      (hc : CleanChol sq s.setupTQfactorisation)
      (h : computeProjectedCholesky sq s.setupTQfactorisation = .ok (SUCCESSFUL_RETURN, s')) : ChangesGeneral sq s'
  | addBound {s s' : QPC K} (hs : ChangesGeneral sq s) {i : Nat} (hi : i < s.nV) {st : SubjectToStatus} (hst : st = ST_LOWER ∨ st = ST_UPPER)
      (hz : s.nAC < s.nFR) (hc : s.CleanAddB sq i true) (h : addBoundPlain sq s i st true = .ok (SUCCESSFUL_RETURN, s')) : ChangesGeneral sq s'
  | addConstraint {s s' : QPC K} (hs : ChangesGeneral sq s) {k : Nat} (hk : k < s.nC) {st : SubjectToStatus} (hst : st = ST_LOWER ∨ st = ST_UPPER)
      (hz : s.nAC < s.nFR) (hc : s.CleanAddC sq k true) (h : addConstraintPlain sq s k st true = .ok (SUCCESSFUL_RETURN, s')) : ChangesGeneral sq s'
  | removeBound {s s' : QPC K} (hs : ChangesGeneral sq s) {i : Nat} (hi : i < s.nV) {flip : Bool} (hc : s.CleanRemoveB sq i flip)
      (h : removeBound sq s i true flip false = .ok (SUCCESSFUL_RETURN, s')) : ChangesGeneral sq s'
  | removeConstraint {s s' : QPC K} (hs : ChangesGeneral sq s) {k : Nat} (hk : k < s.nC) {flip : Bool} (hc : s.CleanRemoveC sq k flip)
      (h : removeConstraint sq s k true flip false = .ok (SUCCESSFUL_RETURN, s')) : ChangesGeneral sq s'

theorem ChangesGeneral.facs {sq : K → K} {s : QPC K} (h : ChangesGeneral sq s) : s.Facs := by
  induction h with
  | start hs hsym hac hH hc h =>
    have b := setupTQfactorisation_base hs hsym hac
    exact (computeProjectedCholesky_spec b.shape b.tq b.sym hc hH h).2
  | @addBound s s' _ i hi st hst hz hc h ih =>
    have hlt : i < s.bounds.n := by rw [ih.shape.nB]; exact hi
    unfold addBoundPlain at h
    cases hck : s.addBoundCheck i with
    | some r =>
      rw [hck] at h
      simp only [Res.ok.injEq, Prod.mk.injEq] at h
      unfold addBoundCheck at hck
      split at hck
      · cases hck; exact absurd h.1 (by decide)
      · split at hck
        · cases hck; exact absurd h.1 (by decide)
        · split at hck
          · cases hck; exact absurd h.1 (by decide)
          · cases hck
    | none =>
      rw [hck] at h
      dsimp only at h
      have hin : s.bounds.status i = ST_INACTIVE := by
        by_contra hne
        unfold addBoundCheck at hck
        rw [if_pos (by rw [WS.getStatus_of_lt hlt]; exact hne)] at hck
        cases hck
      obtain ⟨T, Q, R, k1, k2, k3, k4⟩ := addBoundUpdate_spec ih.shape ih.tq ih.sym (ih.shape.okB.mem_free_iff.2 ⟨hlt, hin⟩) hst
        (show 0 < s.nFR - s.nAC by omega) (fun _ => ih.chol) hc
      rw [k1] at h
      simp only [Res.ok.injEq, Prod.mk.injEq, true_and] at h
      subst h
      exact ⟨k2, k3, k4 rfl, ih.sym⟩
  | @addConstraint s s' _ i hi st hst hz hc h ih =>
    have hlt : i < s.cons.n := by rw [ih.shape.nC]; exact hi
    unfold addConstraintPlain at h
    cases hck : s.addConstraintCheck i with
    | some r =>
      rw [hck] at h
      simp only [Res.ok.injEq, Prod.mk.injEq] at h
      unfold addConstraintCheck at hck
      split at hck
      · cases hck; exact absurd h.1 (by decide)
      · split at hck
        · cases hck; exact absurd h.1 (by decide)
        · split at hck
          · cases hck; exact absurd h.1 (by decide)
          · cases hck
    | none =>
      rw [hck] at h
      dsimp only at h
      have hin : s.cons.status i = ST_INACTIVE := by
        by_contra hne
        unfold addConstraintCheck at hck
        rw [if_pos (by rw [WS.getStatus_of_lt hlt]; exact hne)] at hck
        cases hck
      obtain ⟨T, Q, R, k1, k2, k3, k4⟩ := addConstraintUpdate_spec ih.shape ih.tq ih.sym (ih.shape.okC.mem_free_iff.2 ⟨hlt, hin⟩) hst
        (show 0 < s.nFR - s.nAC by omega) (fun _ => ih.chol) hc
      rw [k1] at h
      simp only [Res.ok.injEq, Prod.mk.injEq, true_and] at h
      subst h
      exact ⟨k2, k3, k4 rfl, ih.sym⟩
  | @removeBound s s' _ i hi flip hc h ih =>
    have hlt : i < s.bounds.n := by rw [ih.shape.nB]; exact hi
    unfold QPC.removeBound at h
    split at h
    · simp only [Res.ok.injEq, Prod.mk.injEq] at h; exact absurd h.1 (by decide)
    · rename_i hst
      split at h
      · simp only [Res.ok.injEq, Prod.mk.injEq] at h; exact absurd h.1 (by decide)
      · rw [if_neg (by decide)] at h
        rw [WS.getStatus_of_lt hlt] at hst
        have hm : i ∈ s.bounds.fixed := by
          have := (ih.shape.okB.perm.mem_iff (a := i)).2 (List.mem_range.2 hlt)
          rw [List.mem_append] at this
          exact this.resolve_left fun hf => hst (ih.shape.okB.mem_free_iff.1 hf).2
        exact (removeBoundUpdate_spec ih hm hc h).1
  | @removeConstraint s s' _ i hi flip hc h ih =>
    unfold QPC.removeConstraint at h
    split at h
    · simp only [Res.ok.injEq, Prod.mk.injEq] at h; exact absurd h.1 (by decide)
    · split at h
      · simp only [Res.ok.injEq, Prod.mk.injEq] at h; exact absurd h.1 (by decide)
      · split at h
        · simp only [Res.ok.injEq, Prod.mk.injEq] at h; exact absurd h.1 (by decide)
        · rename_i hm
          rw [if_neg (by decide)] at h
          exact (removeConstraintUpdate_spec ih (List.contains_iff_mem.1 (by simpa using hm)) hc h).1

/-- **C28** (part): after any history of working set changes, the factors belong to the working set. -/
theorem C28_changes_partial {sq : K → K} {s : QPC K} (h : ChangesGeneral sq s) : FactorsOf s := .of_facs h.facs

/-- **C28** (part): between calls of the solver, after any history of hotstarts, the factors belong to the working set. -/
theorem C28_session_partial {sq : K → K} {fuel n m : Nat} {M A : Nat → Nat → K} {l0 u0 : Nat → K} {s : QPC K}
    (h : SessionC sq fuel n m M A l0 u0 s) : FactorsOf s := .of_facs h.live.good.facs

/-! ### the hypotheses are met -/
section
open Runs

/-- The problem of `gen1` while its auxiliary problem is set up -/
def start28 : QPC ℚ := { gen0c with status := QPS_PREPARINGAUXILIARYQP, bounds := (WS.init 2).setupAllFree, cons := (WS.init 1).setupAllFree }
def run28 (r : Res (ReturnValue × QPC ℚ)) (f : QPC ℚ → Res (ReturnValue × QPC ℚ)) : Res (ReturnValue × QPC ℚ) := r.bind fun p => f p.2
def steps28a : Res (ReturnValue × QPC ℚ) := computeProjectedCholesky rootC start28.setupTQfactorisation
def steps28b : Res (ReturnValue × QPC ℚ) := run28 steps28a fun s => addConstraintPlain rootC s 0 ST_UPPER true
def steps28c : Res (ReturnValue × QPC ℚ) := run28 steps28b fun s => addBoundPlain rootC s 0 ST_LOWER true
def steps28d : Res (ReturnValue × QPC ℚ) := run28 steps28c fun s => QPC.removeConstraint rootC s 0 true false false
def steps28e : Res (ReturnValue × QPC ℚ) := run28 steps28d fun s => QPC.removeBound rootC s 0 true false false

theorem start28_shape : start28.Shape := by
  refine ⟨?_, ?_, rfl, rfl, rfl⟩
  · exact WS.setupAllFree_ok rfl rfl
  · exact WS.setupAllFree_ok rfl rfl

theorem changes28 : ∃ p, steps28e = .ok p ∧ ChangesGeneral rootC p.2 ∧ p.2.bounds.free = [1,0] ∧ p.2.cons.fixed = [] ∧ p.2.R 0 0 = 5 ∧ p.2.R 1 1 = 2 := by
  obtain ⟨⟨ra, a⟩, ea, ha⟩ := of_holds (r := steps28a) (p := fun q => decide (q.1 = SUCCESSFUL_RETURN ∧ 0 < q.2.nC ∧ q.2.nAC < q.2.nFR ∧ q.2.CleanAddC rootC 0 true))
    (by decide +kernel)
  obtain ⟨⟨rb, b⟩, eb, hb⟩ := of_holds (r := steps28b) (p := fun q => decide (q.1 = SUCCESSFUL_RETURN ∧ 0 < q.2.nV ∧ q.2.nAC < q.2.nFR ∧ q.2.CleanAddB rootC 0 true))
    (by decide +kernel)
  obtain ⟨⟨rc, c⟩, ec, hc⟩ := of_holds (r := steps28c) (p := fun q => decide (q.1 = SUCCESSFUL_RETURN ∧ 0 < q.2.nC ∧ q.2.CleanRemoveC rootC 0 false))
    (by decide +kernel)
  obtain ⟨⟨rd, d⟩, ed, hd⟩ := of_holds (r := steps28d) (p := fun q => decide (q.1 = SUCCESSFUL_RETURN ∧ 0 < q.2.nV ∧ q.2.CleanRemoveB rootC 0 false))
    (by decide +kernel)
  obtain ⟨⟨re, e⟩, ee, he⟩ := of_holds (r := steps28e) (p := fun q => decide (q.1 = SUCCESSFUL_RETURN ∧ q.2.bounds.free = [1,0] ∧ q.2.cons.fixed = [] ∧
    q.2.R 0 0 = 5 ∧ q.2.R 1 1 = 2)) (by decide +kernel)
  obtain ⟨rfl, a1, a2, a3⟩ := of_decide_eq_true ha
  obtain ⟨rfl, b1, b2, b3⟩ := of_decide_eq_true hb
  obtain ⟨rfl, c1, c2⟩ := of_decide_eq_true hc
  obtain ⟨rfl, d1, d2⟩ := of_decide_eq_true hd
  obtain ⟨rfl, e1⟩ := of_decide_eq_true he
  refine ⟨_, ee, ?_, e1⟩
  have hA : ChangesGeneral rootC a := .start start28_shape gen0_symH rfl (fun _ => ⟨_, rfl⟩) (by decide +kernel) ea
  have hB : ChangesGeneral rootC b := .addConstraint hA a1 (Or.inr rfl) a2 a3 (by unfold steps28b run28 at eb; rw [ea] at eb; exact eb)
  have hC : ChangesGeneral rootC c := .addBound hB b1 (Or.inl rfl) b2 b3 (by unfold steps28c run28 at ec; rw [eb] at ec; exact ec)
  have hD : ChangesGeneral rootC d := .removeConstraint hC c1 c2 (by unfold steps28d run28 at ed; rw [ec] at ed; exact ed)
  exact .removeBound hD d1 d2 (by unfold steps28e run28 at ee; rw [ed] at ee; exact ee)

end

end QpOASES.Props
