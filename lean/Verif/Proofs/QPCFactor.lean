import Verif.Proofs.TQUpdate
import Verif.Proofs.QPBFactor

/-!
Invariants of the factorisations in `QProblem` and their preservation by changes of the working set.
-/
namespace QpOASES
open Finset Props SubjectToStatus ReturnValue HessianType

set_option linter.unusedSectionVars false

variable {K : Type} [Field K] [LinearOrder K] [IsStrictOrderedRing K]

/-! ### working sets -/
namespace WS
variable {w : WS}

theorem nFX_moveFreeToFixed (w : WS) (i : Nat) (st : SubjectToStatus) : (w.moveFreeToFixed i st).nFX = w.nFX + 1 := by
  show (w.fixed ++ [i]).length = _
  rw [List.length_append]; rfl

theorem fx_moveFreeToFixed_lt (w : WS) (i : Nat) (st : SubjectToStatus) {r : Nat} (hr : r < w.nFX) :
    (w.moveFreeToFixed i st).fx r = w.fx r := by
  show (w.fixed ++ [i]).getD r 0 = w.fixed.getD r 0
  exact List.getD_append _ _ _ _ hr

theorem fx_moveFreeToFixed_eq (w : WS) (i : Nat) (st : SubjectToStatus) : (w.moveFreeToFixed i st).fx w.nFX = i := by
  show (w.fixed ++ [i]).getD w.fixed.length 0 = i
  rw [List.getD_append_right _ _ _ _ (Nat.le_refl _), Nat.sub_self]
  rfl

theorem nFX_moveFixedToFree {i : Nat} (hi : i ∈ w.fixed) : (w.moveFixedToFree i).nFX = w.nFX - 1 := List.length_erase_of_mem hi

theorem fx_moveFixedToFree {i : Nat} (hi : i ∈ w.fixed) {r : Nat} (hr : r + 1 < w.nFX) :
    (w.moveFixedToFree i).fx r = w.fx (if r < w.fixed.idxOf i then r else r + 1) := QPB.erase_getD hi hr

theorem OK.sumFree {M : Type} [AddCommMonoid M] (h : w.OK) (f : Nat → M) : ∑ k ∈ range w.nFR, f (w.fr k) = ∑ i ∈ w.free.toFinset, f i := by
  rw [List.sum_toFinset _ h.nodup_free, sum_getD]
  rfl

theorem swap_mem {l : List Nat} {a b : Nat} (ha : a ∈ l) (hb : b ∈ l) (i : Nat) :
    i ∈ l.map (fun i => if i = a then b else if i = b then a else i) ↔ i ∈ l := by
  rw [List.mem_map]
  constructor
  · rintro ⟨j, hj, rfl⟩
    split
    · exact hb
    · split
      · exact ha
      · exact hj
  · intro hi
    by_cases h1 : i = a
    · subst h1
      refine ⟨b, hb, ?_⟩
      by_cases h2 : b = i
      · rw [if_pos h2, h2]
      · rw [if_neg h2, if_pos rfl]
    · by_cases h2 : i = b
      · subst h2
        exact ⟨a, ha, if_pos rfl⟩
      · exact ⟨i, hi, by rw [if_neg h1, if_neg h2]⟩

theorem swap_inj (a b : Nat) : Function.Injective (fun i : Nat => if i = a then b else if i = b then a else i) := by
  intro x y h
  dsimp only at h
  split at h <;> split at h <;> (try split at h) <;> (try split at h) <;> omega

theorem OK.swapFree (h : w.OK) {a b : Nat} (ha : a ∈ w.free) (hb : b ∈ w.free) : (w.swapFree a b).OK := by
  have hp : (w.swapFree a b).free.Perm w.free := by
    rw [List.perm_ext_iff_of_nodup]
    · exact fun i => swap_mem ha hb i
    · exact h.nodup_free.map (swap_inj a b)
    · exact h.nodup_free
  refine ⟨?_, fun i hi => h.free i ((swap_mem ha hb i).1 hi), h.fixed⟩
  exact (hp.append_right w.fixed).trans h.perm

theorem swapFree_toFinset {a b : Nat} (ha : a ∈ w.free) (hb : b ∈ w.free) : (w.swapFree a b).free.toFinset = w.free.toFinset := by
  ext i
  rw [List.mem_toFinset, List.mem_toFinset]
  exact swap_mem ha hb i

theorem nFR_swapFree (w : WS) (a b : Nat) : (w.swapFree a b).nFR = w.nFR := List.length_map _

theorem fr_swapFree_last {a k : Nat} (hk : k < w.nFR) (hne : w.fr k ≠ a) : (w.swapFree a (w.fr k)).fr k = a := by
  unfold swapFree fr at *
  dsimp only
  unfold nFR at hk
  rw [List.getD_eq_getElem _ _ (by rw [List.length_map]; exact hk), List.getElem_map]
  rw [List.getD_eq_getElem _ _ hk] at *
  rw [if_neg hne, if_pos rfl]

end WS

namespace QPC

/-- The free variables -/
def F (s : QPC K) : Finset Nat := s.bounds.free.toFinset

/-- Consistent working sets of the right size -/
structure Shape (s : QPC K) : Prop where
  okB : s.bounds.OK
  okC : s.cons.OK
  nB : s.bounds.n = s.nV
  nC : s.cons.n = s.nC
  size : s.sizeT = min s.nV s.nC

/-- `Q` is orthogonal on the free variables, and the active rows times `Q` are `[0 T]` with `T` reverse triangular. -/
structure TQ (s : QPC K) : Prop where
  le : s.nAC ≤ s.nFR
  tq : TQm s.F s.nFR s.nAC (fun k => s.A (s.ac k)) s.Q s.T (s.sizeT - s.nAC)

/-- `R` is the Cholesky factor of the projected Hessian; the model also needs zeros just below its diagonal. -/
def Chol (s : QPC K) : Prop :=
  s.general = true → ∃ H, s.H = some H ∧ UpperGram s.nZ s.R (projH s.F H s.Q) ∧ ∀ j, s.R (j+1) j = 0

theorem Shape.sum {s : QPC K} (h : s.Shape) (f : Nat → K) : sumTo (fun k => f (s.fr k)) s.nFR = ∑ i ∈ s.F, f i := by
  rw [sumTo_eq]
  exact h.okB.sumFree f

theorem isFree_of_mem {s : QPC K} {i : Nat} (hi : i ∈ s.F) : s.isFree i = true := by
  unfold isFree
  rw [List.contains_iff_mem]
  exact List.mem_toFinset.1 hi

theorem Shape.nFR_le {s : QPC K} (h : s.Shape) : s.nFR ≤ s.nV := by rw [← h.nB]; exact h.okB.nFR_le

theorem _root_.QpOASES.WS.OK.nFX_le {w : WS} (h : w.OK) : w.nFX ≤ w.n := by
  have := h.perm.length_eq
  rw [List.length_append, List.length_range] at this
  unfold WS.nFX; omega

theorem Shape.nAC_le {s : QPC K} (h : s.Shape) : s.nAC ≤ s.nC := by
  rw [← h.nC]; exact h.okC.nFX_le

theorem TQ.size {s : QPC K} (h : s.TQ) (hs : s.Shape) : s.nAC ≤ s.sizeT := by
  have h1 := h.le
  have h2 := hs.nFR_le
  have h3 := hs.nAC_le
  rw [hs.size]; omega

theorem TQ.nZ_eq {s : QPC K} : s.nZ = s.nFR - s.nAC := rfl

/-! ### a constraint enters -/

/-- The rotations are exact when constraint `number` enters. -/
def CleanAddC (sq : K → K) (s : QPC K) (number : Nat) (upd : Bool) : Prop :=
  let prod : Nat → K := fun j => sumTo (fun i => s.A number (s.fr i) * s.Q (s.fr i) j) s.nFR
  CleanSweep sq s.isFree (upd && s.general) s.nZ ⟨prod, s.Q, s.R⟩ ∧
    ((upd && s.general) = true → CleanRestore sq s.nZ (sweep sq s.isFree true s.nZ ⟨prod, s.Q, s.R⟩).R)

theorem sweep_start {F : Finset Nat} {n nZ : Nat} {H : Nat → Nat → K} {upd : Bool} {x : Nat → K} {Q R : Nat → Nat → K} {w : Nat → K}
    (ho : Orth F n Q) (hw : ∀ j < nZ, w j = ∑ i ∈ F, x i * Q i j)
    (hR : upd = true → UpperGram nZ R (projH F H Q) ∧ (∀ j, R (j+1) j = 0) ∧ ∀ i ∈ F, ∀ j ∈ F, H i j = H j i) :
    SweepInv F n nZ H upd x Q R 0 ⟨w, Q, R⟩ := by
  refine ⟨hw, fun j hj => by omega, ho, fun y hy => hy, fun _ _ _ => rfl, fun _ => rfl, fun hu a ha b hb => ?_, fun hu j _ => (hR hu).2.1 j⟩
  obtain ⟨h1, h2, h3⟩ := hR hu
  have key : ∀ a b, a ≤ b → b < nZ → gram nZ (hess 0 R) a b = projH F H Q a b := by
    intro a b hab hb
    rw [← h1 a b hab hb]
    unfold gram
    rw [← sum_subset (s₁ := range (a+1)) (s₂ := range nZ)]
    · refine sum_congr rfl fun q hq => ?_
      have hq := mem_range.1 hq
      have e : ∀ c, q ≤ c → hess 0 R q c = R q c := fun c hc => if_pos (Or.inl hc)
      rw [e a (by omega), e b (by omega)]
    · intro q hq
      rw [mem_range] at *; omega
    · intro q _ hq
      rw [mem_range] at hq
      have : hess 0 R q a = 0 := if_neg (by omega)
      rw [this, zero_mul]
  rcases le_total a b with hab | hab
  · exact key a b hab hb
  · have e1 : gram nZ (hess 0 R) a b = gram nZ (hess 0 R) b a := sum_congr rfl fun _ _ => mul_comm _ _
    have e2 : projH F H Q a b = projH F H Q b a := by
      unfold projH
      simp only [mul_sum]
      rw [sum_comm]
      refine sum_congr rfl fun i hi => sum_congr rfl fun j hj => ?_
      rw [h3 j hj i hi]; ring
    show gram nZ (hess 0 R) a b = projH F H Q a b
    rw [e1, e2]
    exact key b a hab ha

/-- Symmetric Hessian -/
def SymH (s : QPC K) : Prop := ∀ H, s.H = some H → ∀ i < s.nV, ∀ j < s.nV, H i j = H j i

theorem Shape.lt_F {s : QPC K} (h : s.Shape) {i : Nat} (hi : i ∈ s.F) : i < s.nV := by
  rw [← h.nB]; exact h.okB.lt_free (List.mem_toFinset.1 hi)

theorem addConstraintUpdate_spec {sq : K → K} {s : QPC K} (hs : s.Shape) (ht : s.TQ) (hH : s.SymH) {number : Nat}
    (hnum : number ∈ s.cons.free) {st : SubjectToStatus} (hst : st = ST_LOWER ∨ st = ST_UPPER) (hz : 0 < s.nZ) {upd : Bool}
    (hR : upd = true → s.Chol) (hc : s.CleanAddC sq number upd) :
    ∃ T Q R, addConstraintUpdate sq s number st upd =
        .ok (SUCCESSFUL_RETURN, { s with T := T, Q := Q, R := R, cons := s.cons.moveFreeToFixed number st }) ∧
      Shape { s with T := T, Q := Q, R := R, cons := s.cons.moveFreeToFixed number st } ∧
      TQ { s with T := T, Q := Q, R := R, cons := s.cons.moveFreeToFixed number st } ∧
      (upd = true → Chol { s with T := T, Q := Q, R := R, cons := s.cons.moveFreeToFixed number st }) := by
  obtain ⟨hc1, hc2⟩ := hc
  have hle := ht.le
  have hsz := ht.size hs
  have hokC := hs.okC.moveFreeToFixed hnum hst
  have hnf : s.cons.nFX + 1 ≤ s.cons.n := by
    have := hokC.nFX_le
    rw [WS.nFX_moveFreeToFixed] at this
    exact this
  have hzz : s.nZ = s.nFR - s.nAC := rfl
  have hlt : s.nAC < s.sizeT := by
    have h2 := hs.nFR_le
    have h3 := hs.nC
    have : s.nAC = s.cons.nFX := rfl
    rw [hs.size]; omega
  have hAC : ∀ T Q R, ({ s with T := T, Q := Q, R := R, cons := s.cons.moveFreeToFixed number st } : QPC K).nAC = s.nAC + 1 :=
    fun T Q R => WS.nFX_moveFreeToFixed _ _ _
  have hw : ∀ j, (fun j => sumTo (fun i => s.A number (s.fr i) * s.Q (s.fr i) j) s.nFR) j = ∑ i ∈ s.F, s.A number i * s.Q i j :=
    fun j => hs.sum fun i => s.A number i * s.Q i j
  unfold addConstraintUpdate
  dsimp only
  rw [if_neg (by omega), if_pos hz]
  generalize hprod : (fun j => sumTo (fun i => s.A number (s.fr i) * s.Q (s.fr i) j) s.nFR) = prod at *
  -- the sweep
  have hinv : ∃ H : Nat → Nat → K, SweepInv s.F s.nFR s.nZ H (upd && s.general) (s.A number) s.Q s.R (s.nZ - 1)
      (sweep sq s.isFree (upd && s.general) s.nZ ⟨prod, s.Q, s.R⟩) ∧ ((upd && s.general) = true → s.H = some H) := by
    by_cases hu : (upd && s.general) = true
    · rw [Bool.and_eq_true] at hu
      obtain ⟨H, h1, h2, h3⟩ := hR hu.1 hu.2
      refine ⟨H, SweepInv.all (fun i hi => isFree_of_mem hi) (by omega) (sweep_start ht.tq.orth (fun j _ => hw j) fun _ => ⟨h2, h3, ?_⟩) hc1, fun _ => h1⟩
      exact fun i hi j hj => hH H h1 i (hs.lt_F hi) j (hs.lt_F hj)
    · exact ⟨fun _ _ => 0, SweepInv.all (fun i hi => isFree_of_mem hi) (by omega)
        (sweep_start ht.tq.orth (fun j _ => hw j) fun h => absurd h hu) hc1, fun h => absurd h hu⟩
  obtain ⟨H, hinv, hHs⟩ := hinv
  refine ⟨_, _, _, rfl, ⟨hs.okB, hokC, hs.nB, hs.nC, hs.size⟩, ⟨?_, ?_⟩, ?_⟩
  · rw [hAC]
    show s.nAC + 1 ≤ s.nFR
    omega
  · rw [hAC]
    rw [show s.sizeT - (s.nAC + 1) = s.sizeT - s.nAC - 1 by omega]
    refine ht.tq.addRow (by omega) (by omega) hinv ?_ ?_ ?_ ?_ ?_
    · intro k hk
      show s.A ((s.cons.moveFreeToFixed number st).fx k) = s.A (s.cons.fx k)
      rw [WS.fx_moveFreeToFixed_lt _ _ _ hk]
    · show s.A ((s.cons.moveFreeToFixed number st).fx s.cons.nFX) = _
      rw [WS.fx_moveFreeToFixed_eq]
    · intro k hk
      funext c
      dsimp only
      rw [if_neg (by omega), if_neg (by omega)]
    · dsimp only
      rw [if_pos (by omega)]
      rfl
    · intro c hcm
      dsimp only
      rw [if_neg (by omega), if_pos (by omega)]
      rw [show s.nZ + (s.sizeT - s.nAC + c - (s.sizeT - s.nAC)) = s.nFR - s.nAC + c by omega]
      exact hs.sum fun i => s.A number i * s.Q i (s.nFR - s.nAC + c)
  · intro hu hg
    have hg' : s.general = true := hg
    have huu : (upd && s.general) = true := by rw [hu, hg']; rfl
    refine ⟨H, hHs huu, ?_⟩
    dsimp only
    rw [huu] at hinv ⊢
    rw [if_pos rfl]
    obtain ⟨r1, r2⟩ := restoreR_spec (hinv.gram rfl) (hinv.sub rfl) (hc2 huu)
    refine ⟨?_, r2⟩
    show UpperGram (s.nFR - _) _ _
    rw [hAC, show s.nFR - (s.nAC + 1) = s.nZ - 1 by omega]
    exact r1

/-! ### a bound enters -/

/-- The list of free variables with `number` exchanged with the last one -/
def swapped (s : QPC K) (number : Nat) : WS :=
  if s.fr (s.nFR - 1) ≠ number then s.bounds.swapFree number (s.fr (s.nFR - 1)) else s.bounds

theorem swapped_spec {s : QPC K} (hs : s.Shape) {number : Nat} (hnum : number ∈ s.bounds.free) :
    (s.swapped number).OK ∧ (s.swapped number).free.toFinset = s.F ∧ (s.swapped number).nFR = s.nFR ∧
      (s.swapped number).fr (s.nFR - 1) = number ∧ number ∈ (s.swapped number).free ∧ (s.swapped number).fixed = s.bounds.fixed ∧
      (s.swapped number).n = s.bounds.n ∧ (s.swapped number).status = s.bounds.status ∧ (s.swapped number).type = s.bounds.type ∧
      (s.swapped number).noLower = s.bounds.noLower ∧ (s.swapped number).noUpper = s.bounds.noUpper ∧
      ∀ i, (s.swapped number).free.contains i = s.bounds.free.contains i := by
  have hpos : 0 < s.bounds.nFR := List.length_pos_of_mem hnum
  have hlast : s.fr (s.nFR - 1) ∈ s.bounds.free := WS.fr_mem (by have : s.nFR = s.bounds.nFR := rfl; omega)
  unfold swapped
  split
  · next h =>
    refine ⟨hs.okB.swapFree hnum hlast, WS.swapFree_toFinset hnum hlast, WS.nFR_swapFree _ _ _, ?_, (WS.swap_mem hnum hlast _).2 hnum, rfl, rfl,
      rfl, rfl, rfl, rfl, fun i => ?_⟩
    · exact WS.fr_swapFree_last (w := s.bounds) (k := s.nFR - 1) (by have : s.nFR = s.bounds.nFR := rfl; omega) h
    · rw [Bool.eq_iff_iff, List.contains_iff_mem, List.contains_iff_mem]
      exact WS.swap_mem hnum hlast i
  · next h =>
    rw [not_not] at h
    exact ⟨hs.okB, rfl, rfl, h, hnum, rfl, rfl, rfl, rfl, rfl, rfl, fun _ => rfl⟩

/-- The rotations are exact when the bound of variable `number` enters. -/
def CleanAddB (sq : K → K) (s : QPC K) (number : Nat) (upd : Bool) : Prop :=
  let t := sweep sq s.isFree (upd && s.general) s.nZ ⟨fun i => s.Q number i, s.Q, s.R⟩
  CleanSweep sq s.isFree (upd && s.general) s.nZ ⟨fun i => s.Q number i, s.Q, s.R⟩ ∧
    ((upd && s.general) = true → CleanRestore sq s.nZ t.R) ∧
    (0 < s.nAC → CleanBound sq s.isFree s.nFR s.nAC (s.sizeT - s.nAC) (t.w, t.Q, s.T, fun _ => 0))

theorem sweep_w_right (sq : K → K) (free : Nat → Bool) (upd : Bool) (nZ : Nat) (t : Sweep K) {j : Nat} (hj : nZ ≤ j) :
    (sweep sq free upd nZ t).w j = t.w j := by
  unfold sweep
  suffices ∀ m, m ≤ nZ - 1 → (loop (sweepStep sq free upd) m t).w j = t.w j from this _ (Nat.le_refl _)
  intro m
  induction m with
  | zero => intro _; rfl
  | succ m ih =>
    intro hm
    rw [loop]
    unfold sweepStep
    dsimp only
    rw [updA_ne _ _ (by omega), updA_ne _ _ (by omega)]
    exact ih (by omega)

theorem addBoundUpdate_eq (sq : K → K) {s : QPC K} (hs : s.Shape) {number : Nat} (hnum : number ∈ s.bounds.free) (st : SubjectToStatus)
    (upd : Bool) (hz : 0 < s.nZ) :
    let t := sweep sq s.isFree (upd && s.general) s.nZ ⟨fun i => s.Q number i, s.Q, s.R⟩
    let u := loopFrom (s.nZ - 1) (s.nFR - 1) (boundSweepStep sq s.isFree s.nFR s.nAC s.nZ (s.sizeT - s.nAC)) (t.w, t.Q, s.T, fun _ => 0)
    addBoundUpdate sq s number st upd = .ok (SUCCESSFUL_RETURN, { s with
      T := if 0 < s.nAC then u.2.2.1 else s.T
      Q := if 0 < s.nAC then u.2.1 else t.Q
      R := if (upd && s.general) = true then restoreR sq s.nZ t.R else t.R
      bounds := (s.swapped number).moveFreeToFixed number st }) := by
  obtain ⟨_, _, _, b4, _, _, _, _, _, _, _, b12⟩ := swapped_spec hs hnum
  have hzz : s.nZ = s.nFR - s.nAC := rfl
  have e : (if s.fr (s.nFR - 1) ≠ number then { s with bounds := s.bounds.swapFree number (s.fr (s.nFR - 1)) } else s) =
      { s with bounds := s.swapped number } := by
    unfold swapped
    split <;> rfl
  have ef : ({ s with bounds := s.swapped number } : QPC K).isFree = s.isFree := funext b12
  unfold addBoundUpdate
  dsimp only
  rw [if_neg (by omega), e, ef]
  rw [show ({ s with bounds := s.swapped number } : QPC K).fr (s.nFR - 1) = number from b4]
  by_cases h : 0 < s.nAC
  · simp only [if_pos h]
    rfl
  · simp only [if_neg h]
    rfl

theorem addBoundUpdate_spec {sq : K → K} {s : QPC K} (hs : s.Shape) (ht : s.TQ) (hH : s.SymH) {number : Nat}
    (hnum : number ∈ s.bounds.free) {st : SubjectToStatus} (hst : st = ST_LOWER ∨ st = ST_UPPER) (hz : 0 < s.nZ) {upd : Bool}
    (hR : upd = true → s.Chol) (hc : s.CleanAddB sq number upd) :
    ∃ T Q R, addBoundUpdate sq s number st upd =
        .ok (SUCCESSFUL_RETURN, { s with T := T, Q := Q, R := R, bounds := (s.swapped number).moveFreeToFixed number st }) ∧
      Shape { s with T := T, Q := Q, R := R, bounds := (s.swapped number).moveFreeToFixed number st } ∧
      TQ { s with T := T, Q := Q, R := R, bounds := (s.swapped number).moveFreeToFixed number st } ∧
      (upd = true → Chol { s with T := T, Q := Q, R := R, bounds := (s.swapped number).moveFreeToFixed number st }) := by
  obtain ⟨hc1, hc2, hc3⟩ := hc
  obtain ⟨b1, b2, b3, b4, b5, b6, b7, _, _, _, _, b12⟩ := swapped_spec hs hnum
  have hle := ht.le
  have hzz : s.nZ = s.nFR - s.nAC := rfl
  have hnF : number ∈ s.F := List.mem_toFinset.2 hnum
  have hF : ∀ i ∈ s.F, s.isFree i = true := fun i hi => isFree_of_mem hi
  have hw : ∀ j, s.Q number j = ∑ i ∈ s.F, (if i = number then 1 else 0) * s.Q i j := by
    intro j
    simp only [ite_mul, one_mul, zero_mul]
    rw [sum_ite_eq' s.F number, if_pos hnF]
  have hFR : ((s.swapped number).moveFreeToFixed number st).nFR = s.nFR - 1 := by
    rw [QPB.nFR_moveFreeToFixed b5, b3]
  have hFF : ((s.swapped number).moveFreeToFixed number st).free.toFinset = s.F.erase number := by
    ext i
    show i ∈ ((s.swapped number).free.erase number).toFinset ↔ _
    rw [List.mem_toFinset, b1.nodup_free.mem_erase_iff, mem_erase, ← b2, List.mem_toFinset]
  have hinv : ∃ H : Nat → Nat → K, SweepInv s.F s.nFR s.nZ H (upd && s.general) (fun i => if i = number then 1 else 0) s.Q s.R (s.nZ - 1)
      (sweep sq s.isFree (upd && s.general) s.nZ ⟨fun i => s.Q number i, s.Q, s.R⟩) ∧ ((upd && s.general) = true → s.H = some H) := by
    by_cases hu : (upd && s.general) = true
    · rw [Bool.and_eq_true] at hu
      obtain ⟨H, h1, h2, h3⟩ := hR hu.1 hu.2
      refine ⟨H, SweepInv.all hF (by omega) (sweep_start ht.tq.orth (fun j _ => hw j) fun _ => ⟨h2, h3, ?_⟩) hc1, fun _ => h1⟩
      exact fun i hi j hj => hH H h1 i (hs.lt_F hi) j (hs.lt_F hj)
    · exact ⟨fun _ _ => 0, SweepInv.all hF (by omega)
        (sweep_start ht.tq.orth (fun j _ => hw j) fun h => absurd h hu) hc1, fun h => absurd h hu⟩
  obtain ⟨H, hinv, hHs⟩ := hinv
  have hwr : ∀ j, s.nFR - s.nAC ≤ j →
      (sweep sq s.isFree (upd && s.general) s.nZ ⟨fun i => s.Q number i, s.Q, s.R⟩).w j = s.Q number j := fun j hj =>
    sweep_w_right sq s.isFree (upd && s.general) s.nZ _ hj
  have hstart := BoundInv.start ht.tq (by omega) hnF hinv hwr
  have heq := addBoundUpdate_eq sq hs hnum st upd hz
  dsimp only at heq
  generalize sweep sq s.isFree (upd && s.general) s.nZ ⟨fun i => s.Q number i, s.Q, s.R⟩ = t at *
  -- the second part; with no active constraints it is empty
  have hfin : ∃ T Q, T = (if 0 < s.nAC then (loopFrom (s.nZ - 1) (s.nFR - 1) (boundSweepStep sq s.isFree s.nFR s.nAC s.nZ (s.sizeT - s.nAC))
        (t.w, t.Q, s.T, fun _ => 0)).2.2.1 else s.T) ∧
      Q = (if 0 < s.nAC then (loopFrom (s.nZ - 1) (s.nFR - 1) (boundSweepStep sq s.isFree s.nFR s.nAC s.nZ (s.sizeT - s.nAC))
        (t.w, t.Q, s.T, fun _ => 0)).2.1 else t.Q) ∧
      TQm (s.F.erase number) (s.nFR - 1) s.nAC (fun k => s.A (s.ac k)) Q T (s.sizeT - s.nAC) ∧
      (∀ i j, j < s.nZ - 1 → Q i j = t.Q i j) ∧ ∀ j < s.nZ - 1, Q number j = 0 := by
    refine ⟨_, _, rfl, rfl, ?_⟩
    by_cases h : 0 < s.nAC
    · rw [if_pos h, if_pos h]
      have := BoundInv.all hF hnF (by omega) hstart (hc3 h)
      exact ⟨this.finish (by omega) hnF, fun i j hj => this.left i j (by omega), fun j hj => this.row j (by omega)⟩
    · rw [if_neg h, if_neg h]
      have h0 : s.nFR - s.nAC - 1 = s.nFR - 1 := by omega
      rw [h0] at hstart
      exact ⟨hstart.finish (by omega) hnF, fun _ _ _ => rfl, fun j hj => hstart.row j (by omega)⟩
  obtain ⟨T, Q, e1, e2, f1, f2, f3⟩ := hfin
  rw [← e1, ← e2] at heq
  refine ⟨_, _, _, heq, ⟨b1.moveFreeToFixed b5 hst, hs.okC, b7.trans hs.nB, hs.nC, hs.size⟩, ⟨?_, ?_⟩, ?_⟩
  · show s.nAC ≤ ((s.swapped number).moveFreeToFixed number st).nFR
    rw [hFR]; omega
  · show TQm ((s.swapped number).moveFreeToFixed number st).free.toFinset ((s.swapped number).moveFreeToFixed number st).nFR s.nAC
      (fun k => s.A (s.ac k)) Q T (s.sizeT - s.nAC)
    rw [hFR, hFF]
    exact f1
  · intro hu hg
    have hg' : s.general = true := hg
    have huu : (upd && s.general) = true := by rw [hu, hg']; rfl
    refine ⟨H, hHs huu, ?_⟩
    dsimp only
    rw [if_pos huu]
    obtain ⟨r1, r2⟩ := restoreR_spec (hinv.gram huu) (hinv.sub huu) (hc2 huu)
    refine ⟨?_, r2⟩
    show UpperGram (((s.swapped number).moveFreeToFixed number st).nFR - s.nAC) _
      (projH ((s.swapped number).moveFreeToFixed number st).free.toFinset H Q)
    rw [hFR, hFF, show s.nFR - 1 - s.nAC = s.nZ - 1 by omega]
    intro r c hrc hcn
    rw [r1 r c hrc hcn, projH_erase hnF H Q (f3 r (by omega)) (f3 c hcn)]
    exact projH_congr (fun i _ => (f2 i r (by omega)).symm) (fun i _ => (f2 i c hcn).symm)

/-! ### triangular solves that succeed -/

theorem divR_some {sum d q : K} (h : divR sum d = .ok (some q)) : d ≠ 0 := by
  intro h0
  subst h0
  unfold divR at h
  split at h
  · unfold cdiv at h
    rw [if_pos rfl] at h
    cases h
  · cases h

theorem backsolveRT_diag {R : Nat → Nat → K} {b : Option (Nat → K)} : ∀ (m i : Nat) (a a' : Nat → K),
    backsolveRT R b m i a = .ok (SUCCESSFUL_RETURN, a') → ∀ k, i ≤ k → k < i + m → R k k ≠ 0 := by
  intro m
  induction m with
  | zero => intro i a a' _ k h1 h2; omega
  | succ m ih =>
    intro i a a' h k h1 h2
    rw [backsolveRT] at h
    rw [Res.bind_eq_ok] at h
    obtain ⟨q, hq, h⟩ := h
    cases q with
    | none => cases h
    | some q =>
      by_cases hk : k = i
      · subst hk; exact divR_some hq
      · exact ih (i+1) _ a' h k (by omega) (by omega)

theorem backsolveRN_diag {R : Nat → Nat → K} {nR : Nat} {b : Option (Nat → K)} : ∀ (m : Nat) (a a' : Nat → K),
    backsolveRN R nR b m a = .ok (SUCCESSFUL_RETURN, a') → ∀ k < m, R k k ≠ 0 := by
  intro m
  induction m with
  | zero => intro a a' _ k h1; omega
  | succ m ih =>
    intro a a' h k h1
    rw [backsolveRN] at h
    rw [Res.bind_eq_ok] at h
    obtain ⟨q, hq, h⟩ := h
    cases q with
    | none => cases h
    | some q =>
      by_cases hk : k = m
      · subst hk; exact divR_some hq
      · exact ih _ a' h k (by omega)

/-- A transposed solve that succeeds solves. -/
theorem backsolveR_transposed_ok {R : Nat → Nat → K} {nR : Nat} {b : Option (Nat → K)} {a v : Nat → K}
    (h : backsolveR R nR b true a = .ok (SUCCESSFUL_RETURN, v)) : ∀ k < nR, ∑ j ∈ range (k+1), R j k * v j = b.getD a k := by
  have hd : ∀ i < nR, R i i ≠ 0 := fun i hi => backsolveRT_diag nR 0 a v h i (Nat.zero_le _) (by omega)
  rcases C24_solve_transposed_partial hd b a with ⟨a', h1, h2, _⟩ | ⟨a', k, h1, _⟩
  · rw [h] at h1
    cases h1
    exact h2
  · rw [h] at h1
    cases h1

theorem backsolveR_ok {R : Nat → Nat → K} {nR : Nat} {b : Option (Nat → K)} {a v : Nat → K}
    (h : backsolveR R nR b false a = .ok (SUCCESSFUL_RETURN, v)) : ∀ k < nR, ∑ j ∈ Ico k nR, R k j * v j = b.getD a k := by
  have hd : ∀ i < nR, R i i ≠ 0 := fun i hi => backsolveRN_diag nR a v h i hi
  rcases C24_solve_partial hd b a with ⟨a', h1, h2, _⟩ | ⟨a', k, h1, _⟩
  · rw [h] at h1
    cases h1
    exact h2
  · rw [h] at h1
    cases h1

/-! ### a constraint leaves -/

/-- `T` without row `k`, before the triangular form is restored -/
def shiftRows (s : QPC K) (k : Nat) : Nat → Nat → K :=
  fun i c => if i + 1 = s.nAC ∧ s.sizeT - s.nAC ≤ c ∧ c < s.sizeT - s.nAC + s.nAC then 0 else
    if k ≤ i ∧ i + 1 < s.nAC ∧ s.sizeT - s.nAC + (s.nAC - 2 - i) ≤ c ∧ c < s.sizeT - s.nAC + s.nAC then s.T (i+1) c else s.T i c

/-- The rotations are exact when constraint `number` leaves. -/
def CleanRemC (sq : K → K) (s : QPC K) (number : Nat) : Prop :=
  CleanRemove sq s.isFree s.nFR s.nAC (s.sizeT - s.nAC) (s.cons.fixed.idxOf number) (s.shiftRows (s.cons.fixed.idxOf number), s.Q)

theorem removeRow_spec {sq : K → K} {s : QPC K} (ht : s.TQ) {number : Nat}
    (hnum : number ∈ s.cons.fixed) (hc : s.CleanRemC sq number) :
    let p := removeRow sq s (s.cons.fixed.idxOf number)
    TQm s.F s.nFR (s.nAC - 1) (fun k => s.A ((s.cons.moveFixedToFree number).fx k)) p.2 p.1 (s.sizeT - s.nAC + 1) ∧
      ∀ i j, j < s.nZ → p.2 i j = s.Q i j := by
  have hk : s.cons.fixed.idxOf number < s.nAC := List.idxOf_lt_length_iff.2 hnum
  refine ht.tq.removeRow (fun i hi => isFree_of_mem hi) ht.le hk ?_ ?_ ?_ hc
  · intro q hq
    show s.A ((s.cons.moveFixedToFree number).fx q) = _
    rw [WS.fx_moveFixedToFree hnum hq]
    split <;> rfl
  · intro q hqk c hq
    dsimp only
    rw [if_neg (by omega), if_neg (by omega)]
  · intro q hkq hq c h1 h2
    dsimp only
    rw [if_neg (by omega), if_pos (by omega)]

theorem newColumnC_some {s : QPC K} {v : Nat → K} {rho2 : K} (h : s.newColumnC = .ok (some (v, rho2))) (hs : s.Shape) :
    ∃ H, s.H = some H ∧ (∀ k < s.nZ, ∑ q ∈ range (k+1), s.R q k * v q = projH s.F H s.Q k s.nZ) ∧
      rho2 = projH s.F H s.Q s.nZ s.nZ - ∑ q ∈ range s.nZ, v q * v q := by
  unfold newColumnC at h
  rw [Res.bind_eq_ok] at h
  obtain ⟨H, hH, h⟩ := h
  rw [Res.bind_eq_ok] at h
  obtain ⟨⟨r, v'⟩, hb, h⟩ := h
  dsimp only at h
  have hHs : s.H = some H := by
    unfold QPB.getH at hH
    cases hh : s.H with
    | none => rw [hh] at hH; cases hH
    | some H' => rw [hh] at hH; cases hH; rfl
  refine ⟨H, hHs, ?_⟩
  split at h
  · cases h
  · next hr =>
    rw [not_not] at hr
    subst hr
    cases h
    have hz : ∀ i, sumTo (fun k => H (s.fr i) (s.fr k) * s.Q (s.fr k) s.nZ) s.nFR = ∑ i' ∈ s.F, H (s.fr i) i' * s.Q i' s.nZ :=
      fun i => hs.sum fun i' => H (s.fr i) i' * s.Q i' s.nZ
    have hp : ∀ a, sumTo (fun j => s.Q (s.fr j) a * sumTo (fun k => H (s.fr j) (s.fr k) * s.Q (s.fr k) s.nZ) s.nFR) s.nFR =
        projH s.F H s.Q a s.nZ := by
      intro a
      simp only [hz]
      exact hs.sum fun i => s.Q i a * ∑ i' ∈ s.F, H i i' * s.Q i' s.nZ
    constructor
    · intro k hk
      rw [backsolveR_transposed_ok hb k hk]
      exact hp k
    · rw [hp, subUp_eq, Nat.Ico_zero_eq_range]
      ring

/-- State after constraint `number` has left with the diagonal element `d` of `R`. -/
theorem removeC_core {sq : K → K} {s : QPC K} (hs : s.Shape) (ht : s.TQ) {number : Nat} (hnum : number ∈ s.cons.fixed)
    (hc : s.CleanRemC sq number) (fl : Option (WS × (Nat → Nat → K) × WS × (Nat → Nat → K) × (Nat → Nat → K))) (R : Nat → Nat → K) :
    let p := removeRow sq s (s.cons.fixed.idxOf number)
    Shape { s with T := p.1, Q := p.2, R := R, flipC := fl, cons := s.cons.moveFixedToFree number } ∧
    TQ { s with T := p.1, Q := p.2, R := R, flipC := fl, cons := s.cons.moveFixedToFree number } := by
  obtain ⟨h1, _⟩ := removeRow_spec ht hnum hc
  have hle := ht.le
  have hsz := ht.size hs
  have hpos : 0 < s.nAC := List.length_pos_of_mem hnum
  have hAC : (s.cons.moveFixedToFree number).nFX = s.nAC - 1 := WS.nFX_moveFixedToFree hnum
  refine ⟨⟨hs.okB, hs.okC.moveFixedToFree hnum, hs.nB, hs.nC, hs.size⟩, ⟨?_, ?_⟩⟩
  · show (s.cons.moveFixedToFree number).nFX ≤ s.nFR
    omega
  · show TQm s.F s.nFR (s.cons.moveFixedToFree number).nFX _ _ _ (s.sizeT - (s.cons.moveFixedToFree number).nFX)
    rw [hAC, show s.sizeT - (s.nAC - 1) = s.sizeT - s.nAC + 1 by omega]
    exact h1

theorem removeC_chol {sq : K → K} {s : QPC K} (hs : s.Shape) (ht : s.TQ) {number : Nat} (hnum : number ∈ s.cons.fixed)
    (hc : s.CleanRemC sq number) (fl : Option (WS × (Nat → Nat → K) × WS × (Nat → Nat → K) × (Nat → Nat → K))) (hR : s.Chol)
    (hg : s.general = true) {v : Nat → K} {rho2 d : K}
    (hcol : newColumnC { s with T := (removeRow sq s (s.cons.fixed.idxOf number)).1, Q := (removeRow sq s (s.cons.fixed.idxOf number)).2 } =
      .ok (some (v, rho2))) (hd : d * d = rho2) :
    Chol { s with
      T := (removeRow sq s (s.cons.fixed.idxOf number)).1
      Q := (removeRow sq s (s.cons.fixed.idxOf number)).2
      R := fun i j => if i = s.nZ ∧ j = s.nZ then d else if i < s.nZ ∧ j = s.nZ then v i else s.R i j
      flipC := fl
      cons := s.cons.moveFixedToFree number } := by
  obtain ⟨_, h2⟩ := removeRow_spec ht hnum hc
  generalize removeRow sq s (s.cons.fixed.idxOf number) = p at *
  have hle := ht.le
  have hpos : 0 < s.nAC := List.length_pos_of_mem hnum
  have hzz : s.nZ = s.nFR - s.nAC := rfl
  have hAC : (s.cons.moveFixedToFree number).nFX = s.nAC - 1 := WS.nFX_moveFixedToFree hnum
  obtain ⟨H, q1, q2, q3⟩ := newColumnC_some hcol ⟨hs.okB, hs.okC, hs.nB, hs.nC, hs.size⟩
  obtain ⟨H', k1, k2, k3⟩ := hR hg
  have : H' = H := by
    have : s.H = some H := q1
    rw [k1] at this; cases this; rfl
  subst this
  intro _
  refine ⟨H', k1, ?_, fun j => ?_⟩
  · show UpperGram (s.nFR - (s.cons.moveFixedToFree number).nFX) _ (projH s.F H' p.2)
    rw [hAC, show s.nFR - (s.nAC - 1) = s.nZ + 1 by omega]
    refine UpperGram.append (v := v) (d := d) ?_ q2 (hd.trans q3)
    intro r c hrc hcn
    rw [k2 r c hrc hcn]
    exact projH_congr (fun i _ => (h2 i r (by omega)).symm) (fun i _ => (h2 i c hcn).symm)
  · dsimp only
    rw [if_neg (by omega), if_neg (by omega)]
    exact k3 j

/-! ### a bound leaves -/

/-- `Q` with a new row and column for the variable that becomes free -/
def extendQ (s : QPC K) (number : Nat) : Nat → Nat → K := fun i j =>
  if i = number then (if j = s.nFR then 1 else if j < s.nFR then 0 else s.Q i j)
  else if s.isFree i = true ∧ j = s.nFR then 0 else s.Q i j

/-- Matrices `(T, tmp, Q)` after variable `number` has become free -/
def freed (sq : K → K) (s : QPC K) (number : Nat) : (Nat → Nat → K) × (Nat → K) × (Nat → Nat → K) :=
  loop (removeBoundStep sq (fun i => (s.bounds.moveFixedToFree number).free.contains i) s.nAC s.nZ (s.sizeT - s.nAC)) s.nAC
    (s.T, fun i => s.A (s.ac i) number, s.extendQ number)

/-- The rotations are exact when the bound of variable `number` leaves. -/
def CleanRemB (sq : K → K) (s : QPC K) (number : Nat) : Prop :=
  CleanFree sq (fun i => (s.bounds.moveFixedToFree number).free.contains i) s.nFR s.nAC (s.sizeT - s.nAC)
    (s.T, fun i => s.A (s.ac i) number, s.extendQ number)

theorem F_moveFixedToFree (s : QPC K) (number : Nat) : (s.bounds.moveFixedToFree number).free.toFinset = insert number s.F := by
  ext i
  show i ∈ (s.bounds.free ++ [number]).toFinset ↔ _
  rw [List.mem_toFinset, List.mem_append, List.mem_singleton, mem_insert, or_comm]
  unfold F
  rw [List.mem_toFinset]

theorem freed_spec {sq : K → K} {s : QPC K} (hs : s.Shape) (ht : s.TQ) {number : Nat}
    (hnum : number ∈ s.bounds.fixed) (hc : s.CleanRemB sq number) :
    TQm (insert number s.F) (s.nFR + 1) s.nAC (fun k => s.A (s.ac k)) (s.freed sq number).2.2 (s.freed sq number).1 (s.sizeT - s.nAC) ∧
      (∀ i ∈ s.F, ∀ j < s.nZ, (s.freed sq number).2.2 i j = s.Q i j) ∧ ∀ j < s.nZ, (s.freed sq number).2.2 number j = 0 := by
  have hle := ht.le
  have hzz : s.nZ = s.nFR - s.nAC := rfl
  have hnF : number ∉ s.F := fun h => hs.okB.disjoint (List.mem_toFinset.1 h) hnum
  have hne : ∀ i ∈ s.F, i ≠ number := fun i hi e => hnF (e ▸ hi)
  have hrow : ∀ j < s.nFR, s.extendQ number number j = 0 := fun j hj => by
    unfold extendQ
    rw [if_pos rfl, if_neg (by omega), if_pos hj]
  have hrest : ∀ i ∈ s.F, ∀ j < s.nFR, s.extendQ number i j = s.Q i j := fun i hi j hj => by
    unfold extendQ
    rw [if_neg (hne i hi), if_neg (by omega)]
  obtain ⟨h1, h2⟩ := ht.tq.addFree (Q1 := s.extendQ number) (free := fun i => (s.bounds.moveFixedToFree number).free.contains i)
    (number := number) (tmp := fun i => s.A (s.ac i) number) (fun i hi => by
      rw [← F_moveFixedToFree, List.mem_toFinset] at hi
      exact List.contains_iff_mem.2 hi) hnF hle hrow (by
      unfold extendQ
      rw [if_pos rfl, if_pos rfl]) (fun i hi => by
      unfold extendQ
      rw [if_neg (hne i hi), if_pos ⟨isFree_of_mem hi, rfl⟩]) hrest (fun _ _ => rfl) hc
  refine ⟨h1, fun i hi j hj => ?_, fun j hj => ?_⟩
  · exact (h2 i j hj).trans (hrest i hi j (by omega))
  · exact (h2 number j hj).trans (hrow j (by omega))

theorem newColumnB_some {s : QPC K} {nFR nZ nn : Nat} {v : Nat → K} {rho2 : K} (h : s.newColumnB nFR nZ nn = .ok (some (v, rho2)))
    {F : Finset Nat} (hF : ∀ f : Nat → K, sumTo (fun k => f (s.fr k)) nFR = ∑ i ∈ F, f i) (hnn : nn ∉ F)
    (hsym : ∀ H, s.H = some H → ∀ i ∈ F, H i nn = H nn i) (hrow : ∀ j < nZ, s.Q nn j = 0) :
    ∃ H, s.H = some H ∧ (∀ k < nZ, ∑ q ∈ range (k+1), s.R q k * v q = projH (insert nn F) H s.Q k nZ) ∧
      rho2 = projH (insert nn F) H s.Q nZ nZ - ∑ q ∈ range nZ, v q * v q := by
  unfold newColumnB at h
  rw [Res.bind_eq_ok] at h
  obtain ⟨H, hH, h⟩ := h
  rw [Res.bind_eq_ok] at h
  obtain ⟨⟨r, v'⟩, hb, h⟩ := h
  dsimp only at h
  have hHs : s.H = some H := by
    unfold QPB.getH at hH
    cases hh : s.H with
    | none => rw [hh] at hH; cases hH
    | some H' => rw [hh] at hH; cases hH; rfl
  refine ⟨H, hHs, ?_⟩
  split at h
  · cases h
  · next hr =>
    rw [not_not] at hr
    subst hr
    cases h
    have hz : ∀ i, sumTo (fun k => H (s.fr i) (s.fr k) * s.Q (s.fr k) nZ) nFR = ∑ i' ∈ F, H (s.fr i) i' * s.Q i' nZ :=
      fun i => hF fun i' => H (s.fr i) i' * s.Q i' nZ
    have inner : ∀ i, ∑ i' ∈ insert nn F, H i i' * s.Q i' nZ = ∑ i' ∈ F, H i i' * s.Q i' nZ + s.Q nn nZ * H i nn := by
      intro i
      rw [sum_insert hnn]; ring
    constructor
    · intro k hk
      rw [backsolveR_transposed_ok hb k hk]
      show sumTo _ nFR = _
      simp only [hz]
      rw [hF fun i => s.Q i k * (∑ i' ∈ F, H i i' * s.Q i' nZ + s.Q nn nZ * H i nn)]
      unfold projH
      rw [sum_insert hnn, hrow k hk, zero_mul, zero_add]
      exact sum_congr rfl fun i _ => by rw [inner]
    · rw [subUp_eq, Nat.Ico_zero_eq_range]
      simp only [hz]
      rw [hF fun i => s.Q i nZ * (∑ i' ∈ F, H i i' * s.Q i' nZ + 2 * s.Q nn nZ * H i nn)]
      unfold projH
      rw [sum_insert hnn, inner]
      have e1 : ∑ i ∈ F, s.Q i nZ * ∑ i' ∈ insert nn F, H i i' * s.Q i' nZ =
          ∑ i ∈ F, s.Q i nZ * ∑ i' ∈ F, H i i' * s.Q i' nZ + s.Q nn nZ * ∑ i ∈ F, H nn i * s.Q i nZ := by
        rw [mul_sum, ← sum_add_distrib]
        refine sum_congr rfl fun i hi => ?_
        rw [inner, hsym H hHs i hi]; ring
      have e2 : ∑ i ∈ F, s.Q i nZ * (∑ i' ∈ F, H i i' * s.Q i' nZ + 2 * s.Q nn nZ * H i nn) =
          ∑ i ∈ F, s.Q i nZ * ∑ i' ∈ F, H i i' * s.Q i' nZ + 2 * s.Q nn nZ * ∑ i ∈ F, H nn i * s.Q i nZ := by
        rw [mul_sum, ← sum_add_distrib]
        refine sum_congr rfl fun i hi => ?_
        rw [hsym H hHs i hi]; ring
      rw [e1, e2]
      ring

theorem removeB_core {sq : K → K} {s : QPC K} (hs : s.Shape) (ht : s.TQ) {number : Nat} (hnum : number ∈ s.bounds.fixed)
    (hc : s.CleanRemB sq number) (fl : Option (WS × (Nat → Nat → K) × WS × (Nat → Nat → K) × (Nat → Nat → K))) (R : Nat → Nat → K) :
    Shape { s with T := (s.freed sq number).1, Q := (s.freed sq number).2.2, R := R, flipC := fl, bounds := s.bounds.moveFixedToFree number } ∧
    TQ { s with T := (s.freed sq number).1, Q := (s.freed sq number).2.2, R := R, flipC := fl, bounds := s.bounds.moveFixedToFree number } := by
  obtain ⟨h1, _⟩ := freed_spec hs ht hnum hc
  have hle := ht.le
  have hFR : (s.bounds.moveFixedToFree number).nFR = s.nFR + 1 := QPB.nFR_moveFixedToFree _ _
  refine ⟨⟨hs.okB.moveFixedToFree hnum, hs.okC, hs.nB, hs.nC, hs.size⟩, ⟨?_, ?_⟩⟩
  · show s.nAC ≤ (s.bounds.moveFixedToFree number).nFR
    omega
  · show TQm (s.bounds.moveFixedToFree number).free.toFinset (s.bounds.moveFixedToFree number).nFR s.nAC _ _ _ _
    rw [hFR, F_moveFixedToFree]
    exact h1

theorem removeB_chol {sq : K → K} {s : QPC K} (hs : s.Shape) (ht : s.TQ) (hH : s.SymH) {number : Nat}
    (hnum : number ∈ s.bounds.fixed) (hc : s.CleanRemB sq number)
    (fl : Option (WS × (Nat → Nat → K) × WS × (Nat → Nat → K) × (Nat → Nat → K))) (hR : s.Chol)
    (hg : s.general = true) {v : Nat → K} {rho2 d : K}
    (hcol : newColumnB { s with T := (s.freed sq number).1, Q := (s.freed sq number).2.2, bounds := s.bounds.moveFixedToFree number }
      s.nFR s.nZ number = .ok (some (v, rho2))) (hd : d * d = rho2) :
    Chol { s with
      T := (s.freed sq number).1
      Q := (s.freed sq number).2.2
      R := fun i j => if i = s.nZ ∧ j = s.nZ then d else if i < s.nZ ∧ j = s.nZ then v i else s.R i j
      flipC := fl
      bounds := s.bounds.moveFixedToFree number } := by
  obtain ⟨_, h2, h3⟩ := freed_spec hs ht hnum hc
  generalize s.freed sq number = p at *
  have hle := ht.le
  have hzz : s.nZ = s.nFR - s.nAC := rfl
  have hFR : (s.bounds.moveFixedToFree number).nFR = s.nFR + 1 := QPB.nFR_moveFixedToFree _ _
  have hnF : number ∉ s.F := fun h => hs.okB.disjoint (List.mem_toFinset.1 h) hnum
  obtain ⟨H, q1, q2, q3⟩ := newColumnB_some hcol (F := s.F) (fun f => by
      rw [← hs.sum f, sumTo_eq, sumTo_eq]
      refine sum_congr rfl fun k hk => ?_
      show f ((s.bounds.moveFixedToFree number).fr k) = f (s.bounds.fr k)
      rw [QPB.fr_moveFixedToFree_lt _ _ (mem_range.1 hk)]) hnF
    (fun H hHs i hi => hH H hHs i (hs.lt_F hi) number (by rw [← hs.nB]; exact hs.okB.lt_fixed hnum)) h3
  obtain ⟨H', k1, k2, k3⟩ := hR hg
  have : H' = H := by
    have : s.H = some H := q1
    rw [k1] at this; cases this; rfl
  subst this
  intro _
  refine ⟨H', k1, ?_, fun j => ?_⟩
  · show UpperGram ((s.bounds.moveFixedToFree number).nFR - s.nAC) _ (projH (s.bounds.moveFixedToFree number).free.toFinset H' p.2.2)
    rw [hFR, F_moveFixedToFree, show s.nFR + 1 - s.nAC = s.nZ + 1 by omega]
    refine UpperGram.append (v := v) (d := d) ?_ q2 (hd.trans q3)
    intro r c hrc hcn
    rw [k2 r c hrc hcn]
    have e := projH_erase (F := insert number s.F) (mem_insert_self _ _) H' p.2.2 (h3 r (by omega)) (h3 c hcn)
    rw [erase_insert hnF] at e
    rw [← e]
    exact projH_congr (fun i hi => (h2 i hi r (by omega)).symm) (fun i hi => (h2 i hi c hcn).symm)
  · dsimp only
    rw [if_neg (by omega), if_neg (by omega)]
    exact k3 j

end QPC
end QpOASES
