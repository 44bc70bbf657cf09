import Verif.Model.Blas
import Verif.Proofs.Numeric
import Verif.Proofs.Indexlist
import Verif.Spec.MatrixProduct
import Mathlib.Algebra.BigOperators.Group.Finset.Piecewise
import Mathlib.Algebra.BigOperators.GroupWithZero.Finset

namespace QpOASES
open Finset Spec

variable {K : Type} [Field K]

/-- `F` adds `d q` to every element `q`. -/
def Adds (F : (Nat → K) → Nat → K) (d : Nat → K) : Prop := ∀ y q, F y q = y q + d q

theorem Adds.congr {F : (Nat → K) → Nat → K} {d e : Nat → K} (h : Adds F d) (hd : ∀ q, d q = e q) :
    Adds F e := fun y q => by rw [h y q, hd q]

theorem adds_loop {F : Nat → (Nat → K) → Nat → K} {d : Nat → Nat → K} (n : Nat)
    (h : ∀ i < n, Adds (F i) (d i)) : Adds (loop F n) (fun q => ∑ i ∈ range n, d i q) := by
  induction n with
  | zero => intro y q; simp [loop]
  | succ n ih =>
    intro y q
    show F n (loop F n y) q = _
    rw [h n (by omega), ih (fun i hi => h i (by omega))]
    show _ = y q + ∑ i ∈ range (n+1), d i q
    rw [sum_range_succ, add_assoc]

theorem adds_upd (p : Nat) (t : K) :
    Adds (fun y => updA y p (y p + t)) (fun q => if q = p then t else 0) := by
  intro y q
  by_cases h : q = p
  · subst h; simp
  · simp only [updA_ne _ _ h, h, if_false, add_zero]

theorem adds_comp {F G : (Nat → K) → Nat → K} {d e : Nat → K} (hF : Adds F d) (hG : Adds G e) :
    Adds (fun y => F (G y)) (fun q => e q + d q) := by
  intro y q
  show F (G y) q = _
  rw [hF, hG, add_assoc]

theorem adds_id : Adds (fun y : Nat → K => y) (fun _ => 0) := fun y q => by simp

/-- Loop over positions that are pairwise different, each rewritten from its own old value. -/
theorem loop2_write {α : Type} (n m : Nat) (pos : Nat → Nat → Nat) (g : Nat → Nat → α → α)
    (inj : ∀ k < n, ∀ j < m, ∀ k' < n, ∀ j' < m, pos k j = pos k' j' → k = k' ∧ j = j') (y : Nat → α) :
    (∀ k < n, ∀ j < m,
      loop2 n m (fun k j y => updA y (pos k j) (g k j (y (pos k j)))) y (pos k j) = g k j (y (pos k j))) ∧
    (∀ q, (∀ k < n, ∀ j < m, q ≠ pos k j) →
      loop2 n m (fun k j y => updA y (pos k j) (g k j (y (pos k j)))) y q = y q) := by
  have inner : ∀ k < n, ∀ m' ≤ m, ∀ y : Nat → α,
      (∀ j < m', loop (fun j y => updA y (pos k j) (g k j (y (pos k j)))) m' y (pos k j) = g k j (y (pos k j))) ∧
      (∀ q, (∀ j < m', q ≠ pos k j) →
        loop (fun j y => updA y (pos k j) (g k j (y (pos k j)))) m' y q = y q) := by
    intro k hk m' hm' y
    induction m' with
    | zero => exact ⟨fun j hj => by omega, fun q _ => rfl⟩
    | succ m' ih =>
      obtain ⟨h1, h2⟩ := ih (by omega)
      refine ⟨fun j hj => ?_, fun q hq => ?_⟩
      · rw [loop]
        by_cases hjm : j = m'
        · subst hjm
          rw [updA_same, h2]
          intro j' hj' e
          have := (inj k hk j (by omega) k hk j' (by omega) e).2
          omega
        · rw [updA_ne _ _ (fun e => hjm (inj k hk j (by omega) k hk m' (by omega) e).2), h1 j (by omega)]
      · rw [loop, updA_ne _ _ (hq m' (by omega)), h2 q (fun j hj => hq j (by omega))]
  have outer : ∀ n' ≤ n,
      (∀ k < n', ∀ j < m,
        loop2 n' m (fun k j y => updA y (pos k j) (g k j (y (pos k j)))) y (pos k j) = g k j (y (pos k j))) ∧
      (∀ q, (∀ k < n', ∀ j < m, q ≠ pos k j) →
        loop2 n' m (fun k j y => updA y (pos k j) (g k j (y (pos k j)))) y q = y q) := by
    intro n' hn'
    induction n' with
    | zero => exact ⟨fun k hk => by omega, fun q _ => rfl⟩
    | succ n' ih =>
      obtain ⟨h1, h2⟩ := ih (by omega)
      refine ⟨fun k hk j hj => ?_, fun q hq => ?_⟩
      · show loop (fun j y => updA y (pos n' j) (g n' j (y (pos n' j)))) m _ (pos k j) = _
        by_cases hkn : k = n'
        · subst hkn
          rw [(inner k (by omega) m (Nat.le_refl _) _).1 j hj]
          have := h2 (pos k j) (fun k' hk' j' hj' e => by
            have := (inj k (by omega) j hj k' (by omega) j' hj' e).1; omega)
          unfold loop2 at this
          rw [this]
        · rw [(inner n' (by omega) m (Nat.le_refl _) _).2]
          · exact h1 k (by omega) j hj
          · intro j' hj' e
            exact hkn (inj k (by omega) j hj n' (by omega) j' hj' e).1
      · show loop (fun j y => updA y (pos n' j) (g n' j (y (pos n' j)))) m _ q = _
        rw [(inner n' (by omega) m (Nat.le_refl _) _).2 q (fun j hj => hq n' (by omega) j hj)]
        exact h2 q (fun k hk j hj => hq k (by omega) j hj)
  exact outer n (Nat.le_refl _)

theorem loop_write {α : Type} (n : Nat) (pos : Nat → Nat) (g : Nat → α → α)
    (inj : ∀ i < n, ∀ j < n, pos i = pos j → i = j) (y : Nat → α) :
    (∀ i < n, loop (fun i y => updA y (pos i) (g i (y (pos i)))) n y (pos i) = g i (y (pos i))) ∧
    (∀ q, (∀ i < n, q ≠ pos i) → loop (fun i y => updA y (pos i) (g i (y (pos i)))) n y q = y q) := by
  have := loop2_write 1 n (fun _ j => pos j) (fun _ j => g j)
    (fun k hk j hj k' hk' j' hj' e => ⟨by omega, inj j hj j' hj' e⟩) y
  exact ⟨fun i hi => this.1 0 (by omega) i hi, fun q hq => this.2 q (fun _ _ j hj => hq j hj)⟩

/-- Injectivity of a block layout. -/
def PosInj (n m : Nat) (pos : Nat → Nat → Nat) : Prop :=
  ∀ k < n, ∀ j < m, ∀ k' < n, ∀ j' < m, pos k j = pos k' j' → k = k' ∧ j = j'

theorem posInj_of {n m ld : Nat} (num : Nat → Nat) (bound : Nat) (hb : ∀ j < m, num j < bound)
    (hi : ∀ j < m, ∀ j' < m, num j = num j' → j = j') (h : Fits n bound ld) :
    PosInj n m (fun k j => num j + k * ld) := by
  intro k hk j hj k' hk' j' hj' e
  have e' : num j + k * ld = num j' + k' * ld := e
  have hkk : k = k' := by
    rcases h with h | h
    · omega
    · have h1 := hb j hj
      have h2 := hb j' hj'
      by_contra hne
      rcases Nat.lt_or_gt_of_ne hne with hlt | hlt
      · have : (k+1) * ld ≤ k' * ld := Nat.mul_le_mul_right _ hlt
        rw [Nat.add_mul] at this
        omega
      · have : (k'+1) * ld ≤ k * ld := Nat.mul_le_mul_right _ hlt
        rw [Nat.add_mul] at this
        omega
  subst hkk
  exact ⟨rfl, hi j hj j' hj' (by omega)⟩

theorem posInj_id {n m ld : Nat} (h : Fits n m ld) : PosInj n m (fun k j => j + k * ld) :=
  posInj_of (fun j => j) m (fun _ h => h) (fun _ _ _ _ e => e) h

/-- A sum over a block of indicator terms. -/
theorem sum_block {n m : Nat} {pos : Nat → Nat → Nat} (inj : PosInj n m pos) (c : Nat → Nat → K)
    {k j : Nat} (hk : k < n) (hj : j < m) :
    ∑ k' ∈ range n, ∑ j' ∈ range m, (if pos k j = pos k' j' then c k' j' else 0) = c k j := by
  rw [sum_eq_single k, sum_eq_single j]
  · simp
  · intro j' hj' hne
    rw [if_neg]
    intro e
    exact hne (inj k hk j hj k hk j' (mem_range.1 hj') e).2.symm
  · intro h; exact absurd (mem_range.2 hj) h
  · intro k' hk' hne
    apply sum_eq_zero
    intro j' hj'
    rw [if_neg]
    intro e
    exact hne (inj k hk j hj k' (mem_range.1 hk') j' (mem_range.1 hj') e).1.symm
  · intro h; exact absurd (mem_range.2 hk) h

theorem sum_block_off {n m : Nat} {pos : Nat → Nat → Nat} (c : Nat → Nat → K) {q : Nat}
    (hq : ∀ k < n, ∀ j < m, q ≠ pos k j) :
    ∑ k' ∈ range n, ∑ j' ∈ range m, (if q = pos k' j' then c k' j' else 0) = 0 := by
  apply sum_eq_zero
  intro k' hk'
  apply sum_eq_zero
  intro j' hj'
  rw [if_neg (hq k' (mem_range.1 hk') j' (mem_range.1 hj'))]

/-- An index list view as maintained by `Indexlist` (C01): numbers below `bound`, `iSort` sorts them
strictly. -/
structure Ix.Wf (ix : Ix) (bound : Nat) : Prop where
  num : ∀ j < ix.len, ix.number j < bound
  rng : ∀ j < ix.len, ix.iSort j < ix.len
  mono : ∀ i j, i < j → j < ix.len → ix.number (ix.iSort i) < ix.number (ix.iSort j)

namespace Ix.Wf
variable {ix : Ix} {bound : Nat}

theorem sinj (h : ix.Wf bound) : ∀ i < ix.len, ∀ j < ix.len, ix.iSort i = ix.iSort j → i = j := by
  intro i hi j hj e
  rcases Nat.lt_trichotomy i j with h1 | h1 | h1
  · have := h.mono i j h1 hj; rw [e] at this; omega
  · exact h1
  · have := h.mono j i h1 hi; rw [e] at this; omega

theorem surj (h : ix.Wf bound) {k : Nat} (hk : k < ix.len) : ∃ i, i < ix.len ∧ ix.iSort i = k := by
  let f : Fin ix.len → Fin ix.len := fun i => ⟨ix.iSort i, h.rng i i.2⟩
  have hf : Function.Injective f := by
    intro a b e
    have : ix.iSort a = ix.iSort b := by simpa [f] using e
    exact Fin.ext (h.sinj a a.2 b b.2 this)
  obtain ⟨a, ha⟩ := (Finite.injective_iff_surjective.1 hf) ⟨k, hk⟩
  exact ⟨a, a.2, by simpa [f] using ha⟩

theorem ninj (h : ix.Wf bound) : ∀ i < ix.len, ∀ j < ix.len, ix.number i = ix.number j → i = j := by
  intro i hi j hj e
  obtain ⟨a, ha, ea⟩ := h.surj hi
  obtain ⟨b, hb, eb⟩ := h.surj hj
  subst ea eb
  rcases Nat.lt_trichotomy a b with h1 | h1 | h1
  · have := h.mono a b h1 hb; omega
  · rw [h1]
  · have := h.mono b a h1 ha; omega

/-- Reordering a sum by the sorting permutation. -/
theorem sum_sort (h : ix.Wf bound) (f : Nat → K) :
    ∑ j ∈ range ix.len, f (ix.iSort j) = ∑ j ∈ range ix.len, f j := by
  apply sum_nbij ix.iSort
  · intro j hj; exact mem_range.2 (h.rng j (mem_range.1 hj))
  · intro i hi j hj e
    exact h.sinj i (by simpa using hi) j (by simpa using hj) e
  · intro k hk
    obtain ⟨i, hi, e⟩ := h.surj (k := k) (by simpa using hk)
    exact ⟨i, by simpa using hi, e⟩
  · intro j _; rfl

end Ix.Wf

/-- The view of an index list in a state reached by the class operations is well formed. -/
theorem Indexlist.Rep.view {s : Indexlist} {l : List Int} {p : Nat → Nat} (R : Rep s l p) {bound : Nat}
    (hb : ∀ a ∈ l, 0 ≤ a ∧ a < bound) :
    (Ix.ofIndexlist s).Wf bound ∧ (Ix.ofIndexlist s).len = l.length ∧
      ∀ i (h : i < l.length), ((Ix.ofIndexlist s).number i : Int) = l[i] := by
  have hn : ∀ i, i < l.length → ((Ix.ofIndexlist s).number i : Int) = v l i := by
    intro i hi
    have h1 : (Ix.ofIndexlist s).number i = (v l i).toNat := by
      simp only [Ix.ofIndexlist, R.num i hi, Option.getD_some]
    have h2 := (hb (v l i) (by rw [v_eq l hi]; exact List.getElem_mem hi)).1
    rw [h1]; omega
  have hs : ∀ i, i < l.length → (Ix.ofIndexlist s).iSort i = p i := by
    intro i hi
    simp only [Ix.ofIndexlist, R.srt i hi, Option.getD_some, Int.toNat_natCast]
  have hl : (Ix.ofIndexlist s).len = l.length := R.len
  refine ⟨⟨?_, ?_, ?_⟩, hl, ?_⟩
  · intro j hj
    rw [hl] at hj
    have h1 := hn j hj
    have h2 := (hb (v l j) (by rw [v_eq l hj]; exact List.getElem_mem hj)).2
    omega
  · intro j hj
    rw [hl] at hj ⊢
    rw [hs j hj]; exact R.rng j hj
  · intro i j hij hj
    rw [hl] at hj
    rw [hs i (by omega), hs j hj]
    have h1 := hn (p i) (R.rng i (by omega))
    have h2 := hn (p j) (R.rng j hj)
    have h3 := R.mono i j hij hj
    omega
  · intro i hi
    rw [hn i hi, v_eq l hi]

section
variable [LinearOrder K] [IsStrictOrderedRing K]

theorem isZero_iff {c t : K} : isZero c t = true ↔ |c| ≤ t := by
  unfold isZero getAbs; exact decide_eq_true_iff

theorem isEqual_iff {c d t : K} : isEqual c d t = true ↔ |c - d| ≤ t := by
  unfold isEqual getAbs; exact decide_eq_true_iff

theorem Spec.Coeff.isZero {c : K} (h : Coeff c) : isZero c = true ↔ c = 0 := by
  rw [isZero_iff]
  exact ⟨h.zero, fun e => by rw [e, abs_zero]; exact ZERO_pos.le⟩

theorem Spec.Coeff.isOne {c : K} (h : Coeff c) : isEqual c 1 = true ↔ c = 1 := by
  rw [isEqual_iff]
  exact ⟨h.one, fun e => by rw [e, sub_self, abs_zero]; exact ZERO_pos.le⟩

theorem Spec.Coeff.isNegOne {c : K} (h : Coeff c) : isEqual c (-1) = true ↔ c = -1 := by
  rw [isEqual_iff, sub_neg_eq_add]
  exact ⟨h.negOne, fun e => by rw [e, neg_add_cancel, abs_zero]; exact ZERO_pos.le⟩

theorem adds_accY {α : K} (h : Coeff α) (p : Nat) (a b : K) :
    Adds (fun y => accY α y p a b) (fun q => if q = p then α * (a * b) else 0) := by
  unfold accY
  by_cases h1 : isEqual α 1 = true
  · simp only [h1, if_true]
    rw [h.isOne.1 h1]
    exact (adds_upd p (a*b)).congr fun q => by rw [one_mul]
  · simp only [h1, if_false]
    by_cases h2 : isEqual α (-1) = true
    · simp only [h2, if_true]
      rw [h.isNegOne.1 h2]
      simp only [sub_eq_add_neg]
      exact (adds_upd p (-(a*b))).congr fun q => by rw [neg_one_mul]
    · simp only [h2]
      exact (adds_upd p (α*a*b)).congr fun q => by rw [mul_assoc]

theorem scaleEntry_eq {α : K} (h : Coeff α) (a : K) : scaleEntry α a = α * a := by
  unfold scaleEntry
  by_cases h1 : isEqual α 1 = true
  · rw [if_pos h1, h.isOne.1 h1, one_mul]
  · rw [if_neg h1]
    by_cases h2 : isEqual α (-1) = true
    · rw [if_pos h2, h.isNegOne.1 h2, neg_one_mul]
    · rw [if_neg h2]

theorem scaleY_spec {β : K} (h : Coeff β) {n m : Nat} {pos neg : Nat → Nat → Nat} (inj : PosInj n m pos)
    (hneg : β = -1 → ∀ k < n, ∀ j < m, neg k j = pos k j) (y : Nat → K) :
    (∀ k < n, ∀ j < m, scaleY β n m pos neg y (pos k j) = β * y (pos k j)) ∧
    (∀ q, (∀ k < n, ∀ j < m, q ≠ pos k j) → scaleY β n m pos neg y q = y q) := by
  unfold scaleY
  by_cases h0 : isZero β = true
  · simp only [h0, if_true]
    rw [h.isZero.1 h0]
    simp only [zero_mul]
    exact loop2_write n m pos (fun _ _ _ => 0) inj y
  · simp only [h0, if_false]
    by_cases h1 : isEqual β (-1) = true
    · simp only [h1, if_true]
      have e := h.isNegOne.1 h1
      rw [e]
      have : loop2 n m (fun k j y => updA y (pos k j) (-(y (neg k j)))) y =
          loop2 n m (fun k j y => updA y (pos k j) (-(y (pos k j)))) y := by
        unfold loop2
        apply loop_congr
        intro k hk
        funext s
        apply loop_congr
        intro j hj
        funext s
        beta_reduce
        rw [hneg e k hk j hj]
      rw [this]
      simp only [neg_one_mul]
      exact loop2_write n m pos (fun _ _ t => -t) inj y
    · simp only [h1]
      by_cases h2 : isEqual β 1 = true
      · simp only [h2]
        rw [h.isOne.1 h2]
        simp
      · simp only [h2]
        have := loop2_write n m pos (fun _ _ t => t * β) inj y
        simp only [Bool.not_false, if_true]
        refine ⟨fun k hk j hj => ?_, this.2⟩
        rw [mul_comm β]
        exact this.1 k hk j hj

/-- Assembling a product: scaling followed by an accumulation. -/
theorem isUpdate_of_adds {α β : K} (hβ : Coeff β) {n m : Nat} {pos neg : Nat → Nat → Nat}
    (inj : PosInj n m pos) (hneg : β = -1 → ∀ k < n, ∀ j < m, neg k j = pos k j) {P : Nat → Nat → K}
    {F : (Nat → K) → Nat → K}
    (hF : Adds F (fun q => ∑ k ∈ range n, ∑ j ∈ range m, if q = pos k j then α * P k j else 0)) (y : Nat → K) :
    IsUpdate n m pos α β P y (F (scaleY β n m pos neg y)) := by
  obtain ⟨h1, h2⟩ := scaleY_spec hβ inj hneg y
  refine ⟨fun k hk j hj => ?_, fun q hq => ?_⟩
  · rw [hF, h1 k hk j hj]
    beta_reduce
    rw [sum_block inj (fun k j => α * P k j) hk hj, add_comm]
  · rw [hF, h2 q hq]
    beta_reduce
    rw [sum_block_off (fun k j => α * P k j) hq, add_zero]

theorem adds_loop3 {n m l : Nat} {F : Nat → Nat → Nat → (Nat → K) → Nat → K} {d : Nat → Nat → Nat → Nat → K}
    (h : ∀ k < n, ∀ j < m, ∀ i < l, Adds (F k j i) (d k j i)) :
    Adds (loop3 n m l F) (fun q => ∑ k ∈ range n, ∑ j ∈ range m, ∑ i ∈ range l, d k j i q) := by
  unfold loop3
  apply adds_loop
  intro k hk
  apply adds_loop
  intro j hj
  apply adds_loop
  intro i hi
  exact h k hk j hj i hi

theorem sum_ite_const (l : Nat) (p : Prop) [Decidable p] (α : K) (f : Nat → K) :
    ∑ i ∈ range l, (if p then α * f i else 0) = if p then α * ∑ i ∈ range l, f i else 0 := by
  by_cases h : p
  · simp [h, mul_sum]
  · simp [h]

end
end QpOASES
