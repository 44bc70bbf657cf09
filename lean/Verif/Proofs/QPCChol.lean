import Verif.Proofs.QPCStep

/-!
The factorisation of the projected Hessian from scratch.
-/
namespace QpOASES
open Finset Props SubjectToStatus ReturnValue HessianType

set_option linter.unusedSectionVars false

variable {K : Type} [Field K] [LinearOrder K] [IsStrictOrderedRing K]

/-- Factorising an array `B` of order `n` stored in a larger one, and clearing the first subdiagonal. -/
theorem potrf_array {sq : K → K} {n N : Nat} (hn : n ≤ N) {B : Nat → Nat → K} (hB : ∀ i j, ¬ (i < n ∧ j < n) → B i j = 0)
    (hp : PivotsOK sq n N n 0 (fun q => B (q % N) (q / N))) (h : (potrf sq n (fun q => B (q % N) (q / N)) N).1 = 0) :
    UpperGram n (fun i j => if i = j + 1 ∧ j + 1 < n then 0 else (potrf sq n (fun q => B (q % N) (q / N)) N).2 (i + N * j)) B ∧
    ∀ j, (fun i j => if i = j + 1 ∧ j + 1 < n then 0 else (potrf sq n (fun q => B (q % N) (q / N)) N).2 (i + N * j)) (j+1) j = 0 := by
  obtain ⟨c1, c2⟩ := C23_factor_pivots hn _ hp h
  refine ⟨fun r c hrc hc => ?_, fun j => ?_⟩
  · have h1 := (c1 r (by omega)).2 c hrc hc
    have e1 : (r + N * c) % N = r := by rw [Nat.add_mul_mod_self_left, Nat.mod_eq_of_lt (by omega)]
    have e2 : (r + N * c) / N = c := by
      rw [Nat.add_mul_div_left _ _ (by omega : 0 < N), Nat.div_eq_of_lt (by omega), Nat.zero_add]
    beta_reduce at h1 ⊢
    rw [e1, e2] at h1
    rw [← h1]
    refine sum_congr rfl fun q hq => ?_
    have hq := mem_range.1 hq
    rw [if_neg (by omega), if_neg (by omega)]
  · beta_reduce
    by_cases hj : j + 1 < n
    · rw [if_pos ⟨rfl, hj⟩]
    · rw [if_neg (fun h => hj h.2), c2 _ (fun r c h1 h2 => ?_)]
      · refine hB _ _ ?_
        rintro ⟨h1, h2⟩
        have hN : 0 < N := by omega
        have e : (j + 1 + N * j) / N = (j + 1) / N + j := Nat.add_mul_div_left _ _ hN
        rw [e] at h2
        have h0 : (j + 1) / N = 0 := by
          generalize (j + 1) / N = t at *
          omega
        have hlt : j + 1 < N := by
          rcases (Nat.div_eq_zero_iff).1 h0 with h | h
          · omega
          · exact h
        rw [Nat.add_mul_mod_self_left, Nat.mod_eq_of_lt hlt] at h1
        omega
      · intro e
        have := Nat.mul_le_mul_left N (show c ≤ j by omega)
        omega

namespace QPC

/-- The matrix whose factor is computed -/
def cholInput (s : QPC K) (H : Nat → Nat → K) : Nat → Nat → K :=
  if s.nAC = 0 then fun i j => if i < s.nFR ∧ j < s.nFR then H (s.fr i) (s.fr j) else 0
  else fun i j =>
    if i < s.nZ ∧ j < s.nZ then sumTo (fun a => s.Q (s.fr a) i * sumTo (fun b => H (s.fr a) (s.fr b) * s.Q (s.fr b) j) s.nFR) s.nFR else 0

/-- The factorisation is exact: the roots of the pivots are, and with an empty working set `Q` has not been rotated. -/
structure CleanChol (sq : K → K) (s : QPC K) : Prop where
  plain : s.general = true → s.nFX + s.nAC = 0 → ∀ j < s.nFR, ∀ i ∈ s.F, s.Q i j = if i = s.fr j then 1 else 0
  pivots : s.general = true → ∀ H, s.H = some H → PivotsOK sq s.nZ s.nV s.nZ 0 (fun q => s.cholInput H (q % s.nV) (q / s.nV))

theorem Shape.sumF {s : QPC K} (h : s.Shape) (f : Nat → K) {j : Nat} (hj : j < s.nFR) :
    ∑ i ∈ s.F, f i * (if i = s.fr j then 1 else 0) = f (s.fr j) := by
  have hm : s.fr j ∈ s.F := List.mem_toFinset.2 (WS.fr_mem hj)
  rw [sum_eq_single (s.fr j) (fun i _ hi => by rw [if_neg hi, mul_zero]) (fun h => absurd hm h), if_pos rfl, mul_one]

/-- Unrotated `Q` -/
theorem Shape.orth_plain {s : QPC K} (h : s.Shape) {Q : Nat → Nat → K} (hQ : ∀ j < s.nFR, ∀ i ∈ s.F, Q i j = if i = s.fr j then 1 else 0) :
    Orth s.F s.nFR Q := by
  intro i hi i' hi'
  have hi0 : i ∈ s.bounds.free := List.mem_toFinset.1 hi
  have hlt : s.bounds.free.idxOf i < s.nFR := WS.idxOf_fr_lt hi0
  have e : s.fr (s.bounds.free.idxOf i) = i := WS.fr_idxOf hi0
  rw [sum_eq_single (s.bounds.free.idxOf i)]
  · rw [hQ _ hlt i hi, hQ _ hlt i' hi', e, if_pos rfl, one_mul]
    by_cases h' : i = i'
    · rw [if_pos h', if_pos h'.symm]
    · rw [if_neg h', if_neg (fun h => h' h.symm)]
  · intro j hj hne
    have hj := mem_range.1 hj
    rw [hQ _ hj i hi, if_neg, zero_mul]
    intro h'
    apply hne
    apply h.okB.fr_inj hj hlt
    exact h'.symm.trans e.symm
  · intro h'
    exact absurd (mem_range.2 hlt) h'

theorem Shape.projH_plain {s : QPC K} (h : s.Shape) {H Q : Nat → Nat → K} (hQ : ∀ j < s.nFR, ∀ i ∈ s.F, Q i j = if i = s.fr j then 1 else 0)
    {a b : Nat} (ha : a < s.nFR) (hb : b < s.nFR) : projH s.F H Q a b = H (s.fr a) (s.fr b) := by
  unfold projH
  have e : ∀ i ∈ s.F, Q i a * ∑ i' ∈ s.F, H i i' * Q i' b = H i (s.fr b) * (if i = s.fr a then 1 else 0) := by
    intro i hi
    rw [hQ a ha i hi, mul_comm]
    congr 1
    rw [sum_congr rfl (fun i' hi' => by rw [hQ b hb i' hi'])]
    exact h.sumF (fun i' => H i i') hb
  rw [sum_congr rfl e]
  exact h.sumF (fun i => H i (s.fr b)) ha

theorem cholInput_zero (s : QPC K) (H : Nat → Nat → K) {i j : Nat} (h : ¬ (i < s.nZ ∧ j < s.nZ)) : s.cholInput H i j = 0 := by
  unfold cholInput
  split
  · next h0 =>
    have : s.nZ = s.nFR := by unfold nZ; omega
    rw [this] at h
    exact if_neg h
  · exact if_neg h

theorem Shape.nZ_le {s : QPC K} (h : s.Shape) : s.nZ ≤ s.nV := le_trans (Nat.sub_le _ _) h.nFR_le

/-- The factorisation from scratch belongs to the working set. -/
theorem computeProjectedCholesky_spec {sq : K → K} {s s' : QPC K} (hs : s.Shape) (ht : s.TQ) (hH : s.SymH) (hc : CleanChol sq s)
    (hHn : s.general = true → ∃ H, s.H = some H) (heq : computeProjectedCholesky sq s = .ok (SUCCESSFUL_RETURN, s')) : (∃ R Q, s' = { s with R := R, Q := Q }) ∧ s'.Facs := by
  have hle := hs.nZ_le
  unfold computeProjectedCholesky at heq
  split at heq
  · next h0 =>
    have hac : s.nAC = 0 := by omega
    have hz : s.nZ = s.nFR := by unfold nZ; omega
    rw [Res.bind_eq_ok] at heq
    obtain ⟨⟨r, b⟩, e1, e2⟩ := heq
    simp only [Res.ok.injEq, Prod.mk.injEq] at e2
    obtain ⟨rfl, rfl⟩ := e2
    have finish : ∀ R, b = { s.toQPB with R := R } → (s.general = true → ∃ H, s.H = some H ∧ UpperGram s.nZ R (projH s.F H s.Q) ∧ ∀ j, R (j+1) j = 0) →
        (∃ R Q, ({ s with toQPB := b } : QPC K) = { s with R := R, Q := Q }) ∧ ({ s with toQPB := b } : QPC K).Facs := by
      rintro R rfl hR
      exact ⟨⟨R, s.Q, rfl⟩, ⟨hs.okB, hs.okC, hs.nB, hs.nC, hs.size⟩, ⟨ht.le, ht.tq⟩, hR, hH⟩
    unfold QPB.computeCholesky at e1
    dsimp only at e1
    split at e1
    · next hty =>
      have hty : s.hessianType = HST_ZERO := hty
      split at e1
      · simp only [Res.ok.injEq, Prod.mk.injEq] at e1
        exact finish _ e1.2.symm (fun hg => absurd (Or.inl hty) (general_iff.1 hg))
      · simp only [Res.ok.injEq, Prod.mk.injEq] at e1
        exact absurd e1.1 (by decide)
    · next hty =>
      have hty : s.hessianType = HST_IDENTITY := hty
      simp only [Res.ok.injEq, Prod.mk.injEq] at e1
      exact finish _ e1.2.symm (fun hg => absurd (Or.inr hty) (general_iff.1 hg))
    · next hz1 hz2 =>
      have hg : s.general = true := general_iff.2 (fun h => h.elim hz1 hz2)
      split at e1
      · rw [Res.bind_eq_ok] at e1
        obtain ⟨H, hH', e1⟩ := e1
        have hHs : s.H = some H := by
          unfold QPB.getH at hH'
          dsimp only at hH'
          split at hH'
          · simp only [Res.ok.injEq] at hH'; rw [← hH']; assumption
          · cases hH'
        split at e1
        · simp only [Res.ok.injEq, Prod.mk.injEq] at e1
          exact absurd e1.1 (by decide)
        · next hinfo =>
          simp only [Res.ok.injEq, Prod.mk.injEq] at e1
          refine finish _ e1.2.symm (fun _ => ⟨H, hHs, ?_⟩)
          have hB : s.cholInput H = fun i j => if i < s.nFR ∧ j < s.nFR then H (s.fr i) (s.fr j) else 0 := by
            unfold cholInput; rw [if_pos hac]
          have hp := hc.pivots hg H hHs
          rw [hB, hz] at hp
          rw [hz] at hle
          obtain ⟨g1, g2⟩ := potrf_array (B := fun i j => if i < s.nFR ∧ j < s.nFR then H (s.fr i) (s.fr j) else 0) hle
            (fun i j h => if_neg h) hp (Nat.le_zero.1 (not_lt.1 hinfo))
          rw [hz]
          refine ⟨fun r c hrc hcn => (g1 r c hrc hcn).trans ?_, g2⟩
          beta_reduce
          rw [if_pos ⟨by omega, hcn⟩, hs.projH_plain (hc.plain hg h0) (by omega) hcn]
      · next hnf =>
        simp only [Res.ok.injEq, Prod.mk.injEq] at e1
        refine finish _ e1.2.symm (fun _ => ?_)
        obtain ⟨H, hHs⟩ := hHn hg
        refine ⟨H, hHs, fun r c _ hcn => ?_, fun j => rfl⟩
        have : s.nFR = 0 := Nat.le_zero.1 (not_lt.1 hnf)
        omega
  · next h0 =>
    dsimp only at heq
    have finish : ∀ R, s' = { s with R := R } → (s.general = true → ∃ H, s.H = some H ∧ UpperGram s.nZ R (projH s.F H s.Q) ∧ ∀ j, R (j+1) j = 0) →
        (∃ R Q, s' = { s with R := R, Q := Q }) ∧ s'.Facs := by
      rintro R rfl hR
      exact ⟨⟨R, s.Q, rfl⟩, ⟨hs.okB, hs.okC, hs.nB, hs.nC, hs.size⟩, ⟨ht.le, ht.tq⟩, hR, hH⟩
    split at heq
    · next hz =>
      simp only [Res.ok.injEq, Prod.mk.injEq] at heq
      refine finish _ heq.2.symm (fun hg => ?_)
      obtain ⟨H, hHs⟩ := hHn hg
      have hz : s.nZ = 0 := hz
      exact ⟨H, hHs, fun r c _ hcn => by omega, fun j => rfl⟩
    · rw [Res.bind_eq_ok] at heq
      obtain ⟨o, e1, e2⟩ := heq
      cases o with
      | none =>
        simp only [Res.ok.injEq, Prod.mk.injEq] at e2
        exact absurd e2.1 (by decide)
      | some p =>
        obtain ⟨R0, Q⟩ := p
        dsimp only at e2
        split at e2
        · simp only [Res.ok.injEq, Prod.mk.injEq] at e2
          exact absurd e2.1 (by decide)
        · next hinfo =>
          simp only [Res.ok.injEq, Prod.mk.injEq] at e2
          have e2 := e2.2.symm
          unfold projectedHessian at e1
          dsimp only at e1
          split at e1
          · next hty =>
            have hty : s.hessianType = HST_ZERO := hty
            split at e1
            · simp only [Res.ok.injEq, Option.some.injEq, Prod.mk.injEq] at e1
              rw [← e1.2] at e2
              exact finish _ e2 (fun hg => absurd (Or.inl hty) (general_iff.1 hg))
            · cases e1
          · next hty =>
            have hty : s.hessianType = HST_IDENTITY := hty
            simp only [Res.ok.injEq, Option.some.injEq, Prod.mk.injEq] at e1
            rw [← e1.2] at e2
            exact finish _ e2 (fun hg => absurd (Or.inr hty) (general_iff.1 hg))
          · next hz1 hz2 =>
            have hg : s.general = true := general_iff.2 (fun h => h.elim hz1 hz2)
            rw [Res.bind_eq_ok] at e1
            obtain ⟨H, hH', e1⟩ := e1
            have hHs : s.H = some H := by
              unfold QPB.getH at hH'
              dsimp only at hH'
              split at hH'
              · simp only [Res.ok.injEq] at hH'; rw [← hH']; assumption
              · cases hH'
            have hp := hc.pivots hg H hHs
            split at e1
            · next hac =>
              have hac : s.nAC = 0 := hac
              have hz : s.nZ = s.nFR := by unfold nZ; omega
              have hB : s.cholInput H = fun i j => if i < s.nFR ∧ j < s.nFR then H (s.fr i) (s.fr j) else 0 := by
                unfold cholInput; rw [if_pos hac]
              simp only [Res.ok.injEq, Option.some.injEq, Prod.mk.injEq] at e1
              obtain ⟨rfl, rfl⟩ := e1
              obtain ⟨g1, g2⟩ := potrf_array hle (fun i j h => cholInput_zero s H h) hp (by rw [hB]; exact Nat.le_zero.1 (not_lt.1 hinfo))
              have hQ : ∀ j < s.nFR, ∀ i ∈ s.F, (fun i j => if j < s.nZ ∧ i < s.nV then (if i = s.fr j then (1 : K) else 0) else s.Q i j) i j =
                  if i = s.fr j then 1 else 0 := by
                intro j hj i hi
                exact if_pos ⟨by omega, hs.lt_F hi⟩
              subst e2
              refine ⟨⟨_, _, rfl⟩, ⟨hs.okB, hs.okC, hs.nB, hs.nC, hs.size⟩, ⟨ht.le, hs.orth_plain hQ, ?_, ?_⟩, fun _ => ⟨H, hHs, ?_⟩, hH⟩
              · intro k hk
                have hk : k < s.nAC := hk
                omega
              · intro k hk
                have hk : k < s.nAC := hk
                omega
              · rw [hB] at g1 g2
                refine ⟨fun r c hrc hcn => (g1 r c hrc hcn).trans ?_, g2⟩
                have hcn : c < s.nFR := hz ▸ hcn
                have := hs.projH_plain (H := H) hQ (show r < s.nFR by omega) hcn
                beta_reduce
                rw [if_pos ⟨by omega, hcn⟩]
                exact this.symm
            · next hac =>
              have hac : ¬ s.nAC = 0 := hac
              have hB : s.cholInput H = fun i j => if i < s.nZ ∧ j < s.nZ then
                  sumTo (fun a => s.Q (s.fr a) i * sumTo (fun b => H (s.fr a) (s.fr b) * s.Q (s.fr b) j) s.nFR) s.nFR else 0 := by
                unfold cholInput; rw [if_neg hac]
              simp only [Res.ok.injEq, Option.some.injEq, Prod.mk.injEq] at e1
              obtain ⟨rfl, rfl⟩ := e1
              obtain ⟨g1, g2⟩ := potrf_array hle (fun i j h => cholInput_zero s H h) hp (by rw [hB]; exact Nat.le_zero.1 (not_lt.1 hinfo))
              rw [hB] at g1 g2
              refine finish _ e2 (fun _ => ⟨H, hHs, fun r c hrc hcn => (g1 r c hrc hcn).trans ?_, g2⟩)
              beta_reduce
              rw [if_pos ⟨by omega, hcn⟩]
              unfold projH
              rw [hs.sum (fun i => s.Q i r * sumTo (fun b => H i (s.fr b) * s.Q (s.fr b) c) s.nFR)]
              refine sum_congr rfl fun i _ => ?_
              rw [hs.sum (fun i' => H i i' * s.Q i' c)]

end QPC
end QpOASES
