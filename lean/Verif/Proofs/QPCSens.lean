import Verif.Proofs.QPCEqp
import Mathlib.LinearAlgebra.FiniteDimensional.Basic

/-!
The solution of an equality-constrained QP depends linearly on its data.
-/
namespace QpOASES.Spec
open Finset

variable {K : Type} [Field K] [LinearOrder K] [IsStrictOrderedRing K]

section
variable (n m : Nat) (H A : Nat → Nat → K) (B C : Nat → Prop)

open Classical in
/-- Left-hand side of the optimality conditions -/
noncomputable def kktOp (w : Nat → K) (i : Nat) : K :=
  if i < n then QP.row n H w i - w (n + i) - ∑ k ∈ range m, A k i * w (2 * n + k)
  else if i < 2 * n then if B (i - n) then w (i - n) else w i
  else if C (i - 2 * n) then QP.row n A w (i - 2 * n) else w i

open Classical in
/-- Right-hand side of the optimality conditions -/
noncomputable def kktRhs (d : Nat → K) (i : Nat) : K :=
  if i < n then -d i
  else if i < 2 * n then if B (i - n) then d i else 0
  else if C (i - 2 * n) then d i else 0

variable {n m H A B C}

theorem row_add (M : Nat → Nat → K) (v w : Nat → K) (i : Nat) : QP.row n M (fun j => v j + w j) i = QP.row n M v i + QP.row n M w i := by
  unfold QP.row
  rw [← sum_add_distrib]
  exact sum_congr rfl fun j _ => by ring

theorem row_smul (M : Nat → Nat → K) (a : K) (w : Nat → K) (i : Nat) : QP.row n M (fun j => a * w j) i = a * QP.row n M w i := by
  unfold QP.row
  rw [mul_sum]
  exact sum_congr rfl fun j _ => by ring

theorem kktOp_add (v w : Nat → K) (i : Nat) : kktOp n m H A B C (fun j => v j + w j) i = kktOp n m H A B C v i + kktOp n m H A B C w i := by
  unfold kktOp
  rw [row_add, row_add]
  split_ifs
  · rw [show ∑ k ∈ range m, A k i * (v (2 * n + k) + w (2 * n + k)) = ∑ k ∈ range m, A k i * v (2 * n + k) + ∑ k ∈ range m, A k i * w (2 * n + k) by
      rw [← sum_add_distrib]; exact sum_congr rfl fun j _ => by ring]
    ring
  all_goals rfl

theorem kktOp_smul (a : K) (w : Nat → K) (i : Nat) : kktOp n m H A B C (fun j => a * w j) i = a * kktOp n m H A B C w i := by
  unfold kktOp
  rw [row_smul, row_smul]
  split_ifs
  · rw [show ∑ k ∈ range m, A k i * (a * w (2 * n + k)) = a * ∑ k ∈ range m, A k i * w (2 * n + k) by
      rw [mul_sum]; exact sum_congr rfl fun j _ => by ring]
    ring
  all_goals rfl

/-- Solving the system is solving the QP. -/
theorem kktOp_iff {d w : Nat → K} : (∀ i < 2 * n + m, kktOp n m H A B C w i = kktRhs n B C d i) ↔
    EqualityKKT n m H A B C d (fun i => d (n + i)) (fun k => d (2 * n + k)) w (fun i => w (n + i)) fun k => w (2 * n + k) := by
  classical
  constructor
  · intro h
    have hB : ∀ i < n, if B i then w i = d (n + i) else w (n + i) = 0 := fun i hi => by
      have e := h (n + i) (by omega)
      unfold kktOp kktRhs at e
      simp only [show ¬ n + i < n by omega, show n + i < 2 * n by omega, if_true, if_false, show n + i - n = i by omega] at e
      split_ifs at e ⊢ <;> exact e
    have hC : ∀ k < m, if C k then QP.row n A w k = d (2 * n + k) else w (2 * n + k) = 0 := fun k hk => by
      have e := h (2 * n + k) (by omega)
      unfold kktOp kktRhs at e
      simp only [show ¬ 2 * n + k < n by omega, show ¬ 2 * n + k < 2 * n by omega, if_false, show 2 * n + k - 2 * n = k by omega] at e
      split_ifs at e ⊢ <;> exact e
    refine ⟨⟨fun i hi hb => ?_, fun k hk hc => ?_⟩, fun i hi => ?_, fun i hi hb => ?_, fun k hk hc => ?_⟩
    · have := hB i hi; rwa [if_pos hb] at this
    · have := hC k hk; rwa [if_pos hc] at this
    · have e := h i (by omega)
      unfold kktOp kktRhs at e
      simp only [hi, if_true] at e
      linear_combination e
    · have := hB i hi; rwa [if_neg hb] at this
    · have := hC k hk; rwa [if_neg hc] at this
  · intro h i hi
    unfold kktOp kktRhs
    split_ifs with h1 h2 hb hc
    · linear_combination h.stat i h1
    · have := h.fixed (i - n) (by omega) hb
      rwa [show n + (i - n) = i by omega] at this
    · have := h.free (i - n) (by omega) hb
      rwa [show n + (i - n) = i by omega] at this
    · have := h.active (i - 2 * n) (by omega) hc
      rwa [show 2 * n + (i - 2 * n) = i by omega] at this
    · have := h.inactive (i - 2 * n) (by omega) hc
      rwa [show 2 * n + (i - 2 * n) = i by omega] at this

/-- A vector as a sequence -/
def padded {N : Nat} (w : Fin N → K) (i : Nat) : K := if h : i < N then w ⟨i, h⟩ else 0

theorem padded_of_lt {N : Nat} (w : Fin N → K) {i : Nat} (h : i < N) : padded w i = w ⟨i, h⟩ := dif_pos h

theorem kktOp_congr {v w : Nat → K} (h : ∀ i < 2 * n + m, v i = w i) {i : Nat} (hi : i < 2 * n + m) : kktOp n m H A B C v i = kktOp n m H A B C w i := by
  have hr : ∀ (M : Nat → Nat → K) k, QP.row n M v k = QP.row n M w k := fun M k => by
    unfold QP.row; exact sum_congr rfl fun j hj => by rw [mem_range] at hj; rw [h j (by omega)]
  unfold kktOp
  rw [hr, hr, h i hi]
  split_ifs with h1 h2 hb hc
  · rw [h (n + i) (by omega)]
    exact congrArg _ (sum_congr rfl fun k hk => by rw [mem_range] at hk; rw [h (2 * n + k) (by omega)])
  · exact h _ (by omega)
  all_goals rfl

variable (n m H A B C) in
/-- The system as a linear map -/
noncomputable def kktMap : (Fin (2 * n + m) → K) →ₗ[K] (Fin (2 * n + m) → K) where
  toFun w i := kktOp n m H A B C (padded w) i
  map_add' v w := by
    funext i
    rw [Pi.add_apply, ← kktOp_add]
    exact kktOp_congr (fun j hj => by rw [padded_of_lt _ hj, padded_of_lt _ hj, padded_of_lt _ hj]; rfl) i.2
  map_smul' a w := by
    funext i
    rw [Pi.smul_apply, smul_eq_mul, RingHom.id_apply, ← kktOp_smul]
    exact kktOp_congr (fun j hj => by rw [padded_of_lt _ hj, padded_of_lt _ hj]; rfl) i.2

/-- If the homogeneous system has no solution but zero, there is a matrix which maps the data to the solution. -/
theorem exists_reaction (h0 : ∀ x y z : Nat → K, EqualityKKT n m H A B C (fun _ => 0) (fun _ => 0) (fun _ => 0) x y z →
    (∀ i < n, x i = 0) ∧ (∀ i < n, y i = 0) ∧ ∀ k < m, z k = 0) : ∃ J, IsReaction n m H A B C J := by
  have hz : ∀ w : Nat → K, (∀ i < 2 * n + m, kktOp n m H A B C w i = 0) → ∀ i < 2 * n + m, w i = 0 := by
    intro w hw i hi
    have h := kktOp_iff (d := fun _ => (0 : K)).1 fun i hi => (hw i hi).trans (by unfold kktRhs; split_ifs <;> simp)
    obtain ⟨e1, e2, e3⟩ := h0 _ _ _ h
    rcases Nat.lt_or_ge i n with h1 | h1
    · exact e1 i h1
    · rcases Nat.lt_or_ge i (2 * n) with h2 | h2
      · have := e2 (i - n) (by omega)
        rwa [show n + (i - n) = i by omega] at this
      · have := e3 (i - 2 * n) (by omega)
        rwa [show 2 * n + (i - 2 * n) = i by omega] at this
  have hinj : Function.Injective (kktMap n m H A B C) := by
    rw [← LinearMap.ker_eq_bot, LinearMap.ker_eq_bot']
    intro w hw
    funext ⟨i, hi⟩
    have := hz (padded w) (fun j hj => congrFun hw ⟨j, hj⟩) i hi
    rwa [padded_of_lt _ hi] at this
  let L := LinearEquiv.ofInjectiveEndo _ hinj
  have hL : ∀ w, L w = kktMap n m H A B C w := fun w => rfl
  let e : Nat → Nat → K := fun r i => if i = r then 1 else 0
  let f : (Nat → K) → Fin (2 * n + m) → K := fun d i => kktRhs n B C d i
  let J : Nat → Nat → K := fun i r => padded (L.symm (f (e r))) i
  have hlin : ∀ d, ∀ i < 2 * n + m, applied n m J d i = padded (L.symm (f d)) i := by
    intro d i hi
    have hf : f d = ∑ r ∈ range (2 * n + m), d r • f (e r) := by
      funext ⟨j, hj⟩
      rw [Finset.sum_apply]
      have hs : ∑ r ∈ range (2 * n + m), (d r • f (e r)) ⟨j, hj⟩ = (d j • f (e j)) ⟨j, hj⟩ :=
        sum_eq_single_of_mem j (mem_range.2 hj) fun r _ hr => by
          rw [Pi.smul_apply, smul_eq_mul]
          show d r * kktRhs n B C (e r) j = 0
          unfold kktRhs
          have : e r j = 0 := if_neg fun h => hr h.symm
          rw [this]
          split_ifs <;> simp
      rw [hs, Pi.smul_apply, smul_eq_mul]
      show kktRhs n B C d j = d j * kktRhs n B C (e j) j
      unfold kktRhs
      have : e j j = 1 := if_pos rfl
      rw [this]
      split_ifs <;> simp
    rw [padded_of_lt _ hi, hf, map_sum, Finset.sum_apply]
    unfold applied
    refine sum_congr rfl fun r _ => ?_
    rw [map_smul, Pi.smul_apply, smul_eq_mul]
    show padded _ i * d r = _
    rw [padded_of_lt _ hi, mul_comm]
  have hsol : ∀ d, ∀ i < 2 * n + m, kktOp n m H A B C (applied n m J d) i = kktRhs n B C d i := by
    intro d i hi
    rw [kktOp_congr (hlin d) hi]
    exact congrFun (L.apply_symm_apply (f d)) ⟨i, hi⟩
  refine ⟨J, fun d => kktOp_iff.1 (hsol d), fun d x y z h => ?_⟩
  have hw := h0 (fun i => x i - applied n m J d i) (fun i => y i - applied n m J d (n + i)) (fun k => z k - applied n m J d (2 * n + k)) ?_
  · exact ⟨fun i hi => sub_eq_zero.1 (hw.1 i hi), fun i hi => sub_eq_zero.1 (hw.2.1 i hi), fun k hk => sub_eq_zero.1 (hw.2.2 k hk)⟩
  · have h' := kktOp_iff.1 (hsol d)
    have hr : ∀ (M : Nat → Nat → K) k, QP.row n M (fun i => x i - applied n m J d i) k = QP.row n M x k - QP.row n M (applied n m J d) k := fun M k => by
      unfold QP.row
      rw [← sum_sub_distrib]
      exact sum_congr rfl fun j _ => by ring
    refine ⟨⟨fun i hi hb => ?_, fun k hk hc => ?_⟩, fun i hi => ?_, fun i hi hb => ?_, fun k hk hc => ?_⟩
    · rw [h.fixed i hi hb, h'.fixed i hi hb, sub_self]
    · rw [hr, h.active k hk hc, h'.active k hk hc, sub_self]
    · rw [hr, show ∑ k ∈ range m, A k i * (z k - applied n m J d (2 * n + k)) = ∑ k ∈ range m, A k i * z k - ∑ k ∈ range m, A k i * applied n m J d (2 * n + k) by
        rw [← sum_sub_distrib]; exact sum_congr rfl fun j _ => by ring]
      linear_combination h.stat i hi - h'.stat i hi
    · rw [h.free i hi hb, h'.free i hi hb, sub_self]
    · rw [h.inactive k hk hc, h'.inactive k hk hc, sub_self]

end

end QpOASES.Spec
