import Verif.Model.QProblemB
import Verif.Spec.WorkingSet
import Verif.Proofs.Numeric
import Mathlib.Data.List.Perm.Basic
import Mathlib.Data.List.Nodup
import Mathlib.Data.List.GetD
import Mathlib.Algebra.BigOperators.Group.List.Basic
import Mathlib.Algebra.BigOperators.Group.Finset.Basic

/-!
Working sets of the solvers: invariant, operations, sums over variables.
-/
namespace QpOASES
open SubjectToStatus SubjectToType Finset

namespace WS

/-- Every variable is listed exactly once, as free or as fixed, in agreement with its status. -/
structure OK (w : WS) : Prop where
  perm : (w.free ++ w.fixed).Perm (List.range w.n)
  free : ∀ i ∈ w.free, w.status i = ST_INACTIVE
  fixed : ∀ i ∈ w.fixed, w.status i = ST_LOWER ∨ w.status i = ST_UPPER

/-- The working set as seen by the specification of `Bounds` (C05-C10). -/
def toSpec (w : WS) : Spec.WorkingSet :=
  { n := w.n, type := w.type, status := w.status, free := w.free.map Int.ofNat, fixed := w.fixed.map Int.ofNat }

section
variable {w : WS}

theorem OK.mem_iff (h : w.OK) {i : Nat} : i < w.n ↔ i ∈ w.free ∨ i ∈ w.fixed := by
  rw [← List.mem_append, h.perm.mem_iff, List.mem_range]

theorem OK.nodup (h : w.OK) : (w.free ++ w.fixed).Nodup := h.perm.nodup_iff.2 List.nodup_range
theorem OK.nodup_free (h : w.OK) : w.free.Nodup := (List.nodup_append.1 h.nodup).1
theorem OK.nodup_fixed (h : w.OK) : w.fixed.Nodup := (List.nodup_append.1 h.nodup).2.1
theorem OK.disjoint (h : w.OK) {i : Nat} (h1 : i ∈ w.free) (h2 : i ∈ w.fixed) : False := by
  have := h.free i h1
  rcases h.fixed i h2 with h' | h' <;> rw [h'] at this <;> cases this

theorem OK.lt_free (h : w.OK) {i : Nat} (hi : i ∈ w.free) : i < w.n := h.mem_iff.2 (Or.inl hi)
theorem OK.lt_fixed (h : w.OK) {i : Nat} (hi : i ∈ w.fixed) : i < w.n := h.mem_iff.2 (Or.inr hi)

theorem OK.mem_free_iff (h : w.OK) {i : Nat} : i ∈ w.free ↔ i < w.n ∧ w.status i = ST_INACTIVE := by
  refine ⟨fun hi => ⟨h.lt_free hi, h.free i hi⟩, fun ⟨h1, h2⟩ => ?_⟩
  rcases h.mem_iff.1 h1 with h3 | h3
  · exact h3
  · rcases h.fixed i h3 with h' | h' <;> rw [h'] at h2 <;> cases h2

theorem OK.mem_fixed_iff (h : w.OK) {i : Nat} :
    i ∈ w.fixed ↔ i < w.n ∧ (w.status i = ST_LOWER ∨ w.status i = ST_UPPER) := by
  refine ⟨fun hi => ⟨h.lt_fixed hi, h.fixed i hi⟩, fun ⟨h1, h2⟩ => ?_⟩
  rcases h.mem_iff.1 h1 with h3 | h3
  · have := h.free i h3
    rcases h2 with h' | h' <;> rw [h'] at this <;> cases this
  · exact h3

theorem OK.status_cases (h : w.OK) {i : Nat} (hi : i < w.n) :
    w.status i = ST_INACTIVE ∨ w.status i = ST_LOWER ∨ w.status i = ST_UPPER := by
  rcases h.mem_iff.1 hi with h1 | h1
  · exact Or.inl (h.free i h1)
  · exact Or.inr (h.fixed i h1)

theorem getStatus_of_lt {i : Nat} (hi : i < w.n) : w.getStatus i = w.status i := if_pos hi

theorem fr_mem {k : Nat} (hk : k < w.nFR) : w.fr k ∈ w.free := by
  unfold fr nFR at *
  rw [List.getD_eq_getElem _ _ hk]
  exact List.getElem_mem hk

theorem fx_mem {k : Nat} (hk : k < w.nFX) : w.fx k ∈ w.fixed := by
  unfold fx nFX at *
  rw [List.getD_eq_getElem _ _ hk]
  exact List.getElem_mem hk

theorem OK.fr_lt (h : w.OK) {k : Nat} (hk : k < w.nFR) : w.fr k < w.n := h.lt_free (fr_mem hk)
theorem OK.fx_lt (h : w.OK) {k : Nat} (hk : k < w.nFX) : w.fx k < w.n := h.lt_fixed (fx_mem hk)

theorem idxOf_getD {l : List Nat} (h : l.Nodup) {k : Nat} (hk : k < l.length) : l.idxOf (l.getD k 0) = k := by
  rw [List.getD_eq_getElem _ _ hk]
  exact h.idxOf_getElem k hk

theorem getD_idxOf {l : List Nat} {i : Nat} (h : i ∈ l) : l.getD (l.idxOf i) 0 = i := by
  rw [List.getD_eq_getElem _ _ (List.idxOf_lt_length_iff.2 h)]
  exact List.getElem_idxOf _

theorem OK.idxOf_fr (h : w.OK) {k : Nat} (hk : k < w.nFR) : w.free.idxOf (w.fr k) = k := idxOf_getD h.nodup_free hk
theorem OK.idxOf_fx (h : w.OK) {k : Nat} (hk : k < w.nFX) : w.fixed.idxOf (w.fx k) = k := idxOf_getD h.nodup_fixed hk
theorem fr_idxOf {i : Nat} (h : i ∈ w.free) : w.fr (w.free.idxOf i) = i := getD_idxOf h
theorem fx_idxOf {i : Nat} (h : i ∈ w.fixed) : w.fx (w.fixed.idxOf i) = i := getD_idxOf h
theorem idxOf_fr_lt {i : Nat} (h : i ∈ w.free) : w.free.idxOf i < w.nFR := List.idxOf_lt_length_iff.2 h
theorem idxOf_fx_lt {i : Nat} (h : i ∈ w.fixed) : w.fixed.idxOf i < w.nFX := List.idxOf_lt_length_iff.2 h

theorem OK.fr_inj (h : w.OK) {k l : Nat} (hk : k < w.nFR) (hl : l < w.nFR) (e : w.fr k = w.fr l) : k = l := by
  rw [← h.idxOf_fr hk, ← h.idxOf_fr hl, e]

theorem OK.nFR_le (h : w.OK) : w.nFR ≤ w.n := by
  have := h.perm.length_eq
  rw [List.length_append, List.length_range] at this
  unfold nFR; omega

theorem sum_getD {K : Type} [AddCommMonoid K] (l : List Nat) (f : Nat → K) :
    (l.map f).sum = ∑ k ∈ Finset.range l.length, f (l.getD k 0) := by
  induction l with
  | nil => simp
  | cons a l ih =>
    rw [List.map_cons, List.sum_cons, ih, List.length_cons, Finset.sum_range_succ', add_comm]
    rfl

theorem sum_range_list {K : Type} [AddCommMonoid K] (n : Nat) (f : Nat → K) :
    ∑ k ∈ Finset.range n, f k = ((List.range n).map f).sum := by
  rw [sum_getD]
  rw [List.length_range]
  refine Finset.sum_congr rfl fun k hk => ?_
  rw [List.getD_eq_getElem _ _ (by simpa using hk)]
  simp

/-- A sum over all variables splits into the free and the fixed ones. -/
theorem OK.sum {K : Type} [AddCommMonoid K] (h : w.OK) (f : Nat → K) :
    ∑ j ∈ Finset.range w.n, f j =
      ∑ k ∈ Finset.range w.nFR, f (w.fr k) + ∑ k ∈ Finset.range w.nFX, f (w.fx k) := by
  rw [sum_range_list, ← (h.perm.map f).sum_eq, List.map_append, List.sum_append, sum_getD, sum_getD]
  rfl

/-- A vector over all variables from its parts by position. -/
def scatter {K : Type} (w : WS) (a b : Nat → K) (i : Nat) : K :=
  if i ∈ w.free then a (w.free.idxOf i) else b (w.fixed.idxOf i)

theorem OK.scatter_fr {K : Type} (h : w.OK) (a b : Nat → K) {k : Nat} (hk : k < w.nFR) : w.scatter a b (w.fr k) = a k := by
  unfold scatter
  rw [if_pos (fr_mem hk), h.idxOf_fr hk]

theorem OK.scatter_fx {K : Type} (h : w.OK) (a b : Nat → K) {k : Nat} (hk : k < w.nFX) : w.scatter a b (w.fx k) = b k := by
  unfold scatter
  rw [if_neg (fun h' => h.disjoint h' (fx_mem hk)), h.idxOf_fx hk]

/-! ### operations -/

theorem OK.moveFixedToFree (h : w.OK) {i : Nat} (hi : i ∈ w.fixed) : (w.moveFixedToFree i).OK := by
  have hn : i ∉ w.free := fun h' => h.disjoint h' hi
  refine ⟨?_, ?_, ?_⟩
  · show ((w.free ++ [i]) ++ w.fixed.erase i).Perm (List.range w.n)
    refine List.Perm.trans ?_ h.perm
    rw [List.append_assoc]
    exact List.Perm.append_left _ (List.perm_cons_erase hi).symm
  · intro j hj
    rcases List.mem_append.1 hj with hj | hj
    · show updA w.status i ST_INACTIVE j = _
      rw [updA_ne _ _ (show j ≠ i from fun e => hn (e ▸ hj))]
      exact h.free j hj
    · rw [List.mem_singleton] at hj
      subst hj
      exact updA_same _ _ _
  · intro j hj
    have hne : j ≠ i := fun e => by subst e; exact h.nodup_fixed.not_mem_erase hj
    show updA w.status i ST_INACTIVE j = _ ∨ updA w.status i ST_INACTIVE j = _
    rw [updA_ne _ _ hne]
    exact h.fixed j (List.mem_of_mem_erase hj)

theorem OK.moveFreeToFixed (h : w.OK) {i : Nat} (hi : i ∈ w.free) {st : SubjectToStatus} (hst : st = ST_LOWER ∨ st = ST_UPPER) :
    (w.moveFreeToFixed i st).OK := by
  have hn : i ∉ w.fixed := fun h' => h.disjoint hi h'
  refine ⟨?_, ?_, ?_⟩
  · show (w.free.erase i ++ (w.fixed ++ [i])).Perm (List.range w.n)
    refine List.Perm.trans ?_ h.perm
    have h1 : (w.free.erase i ++ (w.fixed ++ [i])).Perm (i :: (w.free.erase i ++ w.fixed)) := by
      rw [← List.append_assoc]
      exact List.perm_append_singleton _ _
    exact h1.trans ((List.perm_cons_erase hi).symm.append_right w.fixed)
  · intro j hj
    have hne : j ≠ i := fun e => by subst e; exact h.nodup_free.not_mem_erase hj
    show updA w.status i st j = _
    rw [updA_ne _ _ hne]
    exact h.free j (List.mem_of_mem_erase hj)
  · intro j hj
    rcases List.mem_append.1 hj with hj | hj
    · show updA w.status i st j = _ ∨ updA w.status i st j = _
      rw [updA_ne _ _ (show j ≠ i from fun e => hn (e ▸ hj))]
      exact h.fixed j hj
    · rw [List.mem_singleton] at hj
      subst hj
      show updA w.status j st j = _ ∨ updA w.status j st j = _
      rw [updA_same]
      exact hst

theorem flipFixed_fields (w : WS) (i : Nat) :
    (w.flipFixed i).n = w.n ∧ (w.flipFixed i).free = w.free ∧ (w.flipFixed i).fixed = w.fixed ∧
    (w.flipFixed i).type = w.type ∧ (w.flipFixed i).noLower = w.noLower ∧ (w.flipFixed i).noUpper = w.noUpper ∧
    ∀ j, j ≠ i → (w.flipFixed i).status j = w.status j := by
  unfold flipFixed
  split <;> refine ⟨rfl, rfl, rfl, rfl, rfl, rfl, fun j hj => ?_⟩
  · exact updA_ne _ _ hj
  · exact updA_ne _ _ hj
  · rfl

theorem flipFixed_status (w : WS) {i : Nat} (h : w.status i = ST_LOWER ∨ w.status i = ST_UPPER) :
    (w.status i = ST_LOWER ∧ (w.flipFixed i).status i = ST_UPPER) ∨
    (w.status i = ST_UPPER ∧ (w.flipFixed i).status i = ST_LOWER) := by
  rcases h with h | h
  · left; refine ⟨h, ?_⟩; unfold flipFixed; rw [h]; exact updA_same _ _ _
  · right; refine ⟨h, ?_⟩; unfold flipFixed; rw [h]; exact updA_same _ _ _

theorem OK.flipFixed (h : w.OK) {i : Nat} (hi : i ∈ w.fixed) : (w.flipFixed i).OK := by
  obtain ⟨e1, e2, e3, _, _, _, e4⟩ := w.flipFixed_fields i
  refine ⟨by rw [e1, e2, e3]; exact h.perm, fun j hj => ?_, fun j hj => ?_⟩
  · rw [e2] at hj
    rw [e4 j (fun e => h.disjoint (e ▸ hj) hi)]
    exact h.free j hj
  · rw [e3] at hj
    by_cases hji : j = i
    · subst hji
      rcases w.flipFixed_status (h.fixed j hj) with h' | h'
      · exact Or.inr h'.2
      · exact Or.inl h'.2
    · rw [e4 j hji]
      exact h.fixed j hj

/-! ### relation to the specification of `Bounds` -/

theorem OK.consistent (h : w.OK) : w.toSpec.Consistent ∧ w.toSpec.Complete := by
  refine ⟨⟨fun x => ?_, fun x => ?_, ?_, ?_⟩, fun i hi => ?_⟩
  · show x ∈ w.free.map Int.ofNat ↔ _
    rw [List.mem_map]
    constructor
    · rintro ⟨i, hi, rfl⟩
      refine ⟨i, h.lt_free hi, rfl, ?_⟩
      show Spec.WorkingSet.isInactive (w.status i) = true
      rw [h.free i hi]; rfl
    · rintro ⟨i, hi, rfl, h2⟩
      refine ⟨i, ?_, rfl⟩
      rcases h.mem_iff.1 hi with h3 | h3
      · exact h3
      · exfalso
        have h2 : Spec.WorkingSet.isInactive (w.status i) = true := h2
        rcases h.fixed i h3 with h4 | h4 <;> rw [h4] at h2 <;> exact absurd h2 (by decide)
  · show x ∈ w.fixed.map Int.ofNat ↔ _
    rw [List.mem_map]
    constructor
    · rintro ⟨i, hi, rfl⟩
      refine ⟨i, h.lt_fixed hi, rfl, ?_⟩
      show Spec.WorkingSet.isActive (w.status i) = true
      rcases h.fixed i hi with h4 | h4 <;> rw [h4] <;> rfl
    · rintro ⟨i, hi, rfl, h2⟩
      refine ⟨i, ?_, rfl⟩
      rcases h.mem_iff.1 hi with h3 | h3
      · exfalso
        have h2 : Spec.WorkingSet.isActive (w.status i) = true := h2
        rw [h.free i h3] at h2
        exact absurd h2 (by decide)
      · exact h3
  · exact h.nodup_free.map fun a b e => Int.ofNat.inj e
  · exact h.nodup_fixed.map fun a b e => Int.ofNat.inj e
  · rcases h.status_cases hi with h' | h' | h'
    · left; show Spec.WorkingSet.isInactive (w.status i) = true; rw [h']; rfl
    · right; show Spec.WorkingSet.isActive (w.status i) = true; rw [h']; rfl
    · right; show Spec.WorkingSet.isActive (w.status i) = true; rw [h']; rfl

theorem setAt_eq {α : Type} (f : Nat → α) (i : Nat) (x : α) : Spec.WorkingSet.setAt f (i : Int) x = updA f i x := by
  funext k
  unfold Spec.WorkingSet.setAt updA
  by_cases h : k = i
  · rw [if_pos (by exact_mod_cast h), if_pos h]
  · rw [if_neg (by exact_mod_cast h), if_neg h]

theorem map_erase_ofNat (l : List Nat) (i : Nat) : (l.erase i).map Int.ofNat = (l.map Int.ofNat).erase (i : Int) := by
  induction l with
  | nil => rfl
  | cons a l ih =>
    rw [List.map_cons, List.erase_cons, List.erase_cons]
    by_cases h : a = i
    · subst h
      have h1 : (a == a) = true := by simp
      have h2 : (Int.ofNat a == (a : Int)) = true := by simp
      rw [if_pos h1, if_pos h2]
    · have h1 : ¬ (a == i) = true := by simpa using h
      have h2 : ¬ (Int.ofNat a == (i : Int)) = true := by simpa using h
      rw [if_neg h1, if_neg h2, List.map_cons, ih]

theorem moveFixedToFree_spec (k : Kind) {i : Nat} (hi : i < w.n) :
    Spec.WorkingSet.step k w.toSpec (.moveToInact i) = (.SUCCESSFUL_RETURN, (w.moveFixedToFree i).toSpec) := by
  have h1 : w.toSpec.inRange (i : Int) = true := by
    show (decide ((0 : Int) ≤ i) && decide ((i : Int) < w.n)) = true
    simp; exact hi
  rw [Spec.WorkingSet.step, if_pos h1]
  simp only [toSpec, WS.moveFixedToFree, setAt_eq, map_erase_ofNat, List.map_append, List.map_cons, List.map_nil]
  rfl

theorem moveFreeToFixed_spec (k : Kind) {i : Nat} (hi : i < w.n) (st : SubjectToStatus) :
    Spec.WorkingSet.step k w.toSpec (.moveToAct i st) = (.SUCCESSFUL_RETURN, (w.moveFreeToFixed i st).toSpec) := by
  have h1 : w.toSpec.inRange (i : Int) = true := by
    show (decide ((0 : Int) ≤ i) && decide ((i : Int) < w.n)) = true
    simp; exact hi
  rw [Spec.WorkingSet.step, if_pos h1]
  simp only [toSpec, WS.moveFreeToFixed, setAt_eq, map_erase_ofNat, List.map_append, List.map_cons, List.map_nil]
  rfl

end
end WS
end QpOASES
