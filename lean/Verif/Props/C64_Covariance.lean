import Verif.Props.C63_CurrentEQP
import Verif.Proofs.QPCSens

/-!
C64: `SolutionAnalysis::getVarianceCovariance` computes the covariance of the solution under disturbances of the data.
-/
namespace QpOASES.QPC
open Finset Spec ReturnValue SubjectToStatus SubjectToType HessianType QProblemStatus

set_option linter.unusedSectionVars false

variable {K : Type} [Field K] [LinearOrder K] [IsStrictOrderedRing K]

theorem loop_store2 {α : Type} {p q : Nat → Nat} {u v : Nat → α} : ∀ {n : Nat} (a : Nat → α), (∀ i < n, ∀ j < n, p i = p j → i = j) →
    (∀ i < n, ∀ j < n, q i = q j → i = j) → (∀ i < n, ∀ j < n, p i ≠ q j) →
    (∀ j < n, loop (fun j a => updA (updA a (p j) (u j)) (q j) (v j)) n a (p j) = u j) ∧
    (∀ j < n, loop (fun j a => updA (updA a (p j) (u j)) (q j) (v j)) n a (q j) = v j) ∧
    ∀ k, (∀ j < n, k ≠ p j) → (∀ j < n, k ≠ q j) → loop (fun j a => updA (updA a (p j) (u j)) (q j) (v j)) n a k = a k := by
  intro n
  induction n with
  | zero => intro a _ _ _; exact ⟨fun j hj => by omega, fun j hj => by omega, fun q _ _ => rfl⟩
  | succ n ih =>
    intro a hp hq hpq
    obtain ⟨h1, h2, h3⟩ := ih a (fun i hi j hj => hp i (by omega) j (by omega)) (fun i hi j hj => hq i (by omega) j (by omega))
      fun i hi j hj => hpq i (by omega) j (by omega)
    refine ⟨fun j hj => ?_, fun j hj => ?_, fun k hkp hkq => ?_⟩
    · show updA (updA _ (p n) (u n)) (q n) (v n) (p j) = _
      rw [updA_ne _ _ (hpq j hj n (by omega))]
      by_cases e : j = n
      · rw [e]; exact updA_same _ _ _
      · rw [updA_ne _ _ (fun e' => e (hp j hj n (by omega) e'))]
        exact h1 j (by omega)
    · show updA (updA _ (p n) (u n)) (q n) (v n) (q j) = _
      by_cases e : j = n
      · rw [e]; exact updA_same _ _ _
      · rw [updA_ne _ _ (fun e' => e (hq j hj n (by omega) e')), updA_ne _ _ (fun e' => hpq n (by omega) j hj e'.symm)]
        exact h2 j (by omega)
    · show updA (updA _ (p n) (u n)) (q n) (v n) k = _
      rw [updA_ne _ _ (hkq n (by omega)), updA_ne _ _ (hkp n (by omega))]
      exact h3 k (fun j hj => hkp j (by omega)) fun j hj => hkq j (by omega)

theorem storeReaction_spec {s : QPC K} (hs : s.Shape) (d : Dir K) {pos : Nat → Nat} {a : Nat → K}
    (hpos : ∀ i < 2 * s.nV + s.nC, ∀ j < 2 * s.nV + s.nC, pos i = pos j → i = j) (h0 : ∀ i < 2 * s.nV + s.nC, a (pos i) = 0) :
    (∀ i < s.nV, s.storeReaction d pos a (pos i) = s.dirX d i) ∧ (∀ i < s.nV, s.storeReaction d pos a (pos (s.nV + i)) = s.dirY d i) ∧
    (∀ k < s.nC, s.storeReaction d pos a (pos (2 * s.nV + k)) = s.dirYC d k) ∧
    ∀ q, (∀ i < 2 * s.nV + s.nC, q ≠ pos i) → s.storeReaction d pos a q = a q := by
  have hfr : ∀ {k}, k < s.nFR → s.fr k < s.nV := fun hk => (hs.fr_spec hk).1
  have hfx : ∀ {k}, k < s.nFX → s.fx k < s.nV := fun hk => (hs.fx_spec hk).1
  have hac : ∀ {k}, k < s.nAC → s.ac k < s.nC := fun hk => (hs.ac_spec hk).1
  have ifr : ∀ {i j}, i < s.nFR → j < s.nFR → s.fr i = s.fr j → i = j := fun hi hj e => hs.okB.fr_inj hi hj e
  have ifx : ∀ {i j}, i < s.nFX → j < s.nFX → s.fx i = s.fx j → i = j := fun hi hj e => hs.okB.fx_inj hi hj e
  have iac : ∀ {i j}, i < s.nAC → j < s.nAC → s.ac i = s.ac j → i = j := fun hi hj e => hs.okC.fx_inj hi hj e
  have hne : ∀ {i j}, i < 2 * s.nV + s.nC → j < 2 * s.nV + s.nC → i ≠ j → pos i ≠ pos j := fun hi hj h e => h (hpos _ hi _ hj e)
  have w1 := loop_store (p := fun j => pos (s.fr j)) (v := d.xFR) (n := s.nFR) a fun i hi j hj e =>
    ifr hi hj (hpos _ (by have := hfr hi; omega) _ (by have := hfr hj; omega) e)
  have w2 := loop_store2 (p := fun j => pos (s.fx j)) (q := fun j => pos (s.nV + s.fx j)) (u := d.xFX) (v := d.yFX) (n := s.nFX)
    (loop (fun j a => updA a (pos (s.fr j)) (d.xFR j)) s.nFR a)
    (fun i hi j hj e => ifx hi hj (hpos _ (by have := hfx hi; omega) _ (by have := hfx hj; omega) e))
    (fun i hi j hj e => ifx hi hj (Nat.add_left_cancel (hpos _ (by have := hfx hi; omega) _ (by have := hfx hj; omega) e)))
    (fun i hi j hj => hne (by have := hfx hi; omega) (by have := hfx hj; omega) (by have := hfx hi; omega))
  have w3 := loop_store (p := fun j => pos (2 * s.nV + s.ac j)) (v := d.yAC) (n := s.nAC)
    (loop (fun j a => updA (updA a (pos (s.fx j)) (d.xFX j)) (pos (s.nV + s.fx j)) (d.yFX j)) s.nFX
      (loop (fun j a => updA a (pos (s.fr j)) (d.xFR j)) s.nFR a)) fun i hi j hj e =>
    iac hi hj (Nat.add_left_cancel (hpos _ (by have := hac hi; omega) _ (by have := hac hj; omega) e))
  refine ⟨fun i hi => ?_, fun i hi => ?_, fun k hk => ?_, fun q hq => ?_⟩
  · refine (w3.2 _ fun j hj => hne (by omega) (by have := hac hj; omega) (by omega)).trans ?_
    rcases hs.casesB hi with ⟨hB, k, hk, rfl⟩ | ⟨hB, k, hk, rfl⟩
    · rw [dirX_fr hs.okB d hk]
      refine (w2.2.2 _ (fun j hj => hne (by omega) (by have := hfx hj; omega) fun e => ?_) fun j hj => hne (by omega) (by have := hfx hj; omega) (by omega)).trans (w1.1 k hk)
      rw [e] at hB
      exact hB (hs.fx_spec hj).2
    · rw [dirX_fx hs.okB d hk]
      exact w2.1 k hk
  · refine (w3.2 _ fun j hj => hne (by omega) (by have := hac hj; omega) (by omega)).trans ?_
    rcases hs.casesB hi with ⟨hB, k, hk, rfl⟩ | ⟨hB, k, hk, rfl⟩
    · refine (w2.2.2 _ (fun j hj => hne (by omega) (by have := hfx hj; omega) (by have := hfx hj; omega)) fun j hj => hne (by omega) (by have := hfx hj; omega) fun e => ?_).trans
        ((w1.2 _ fun j hj => hne (by omega) (by have := hfr hj; omega) (by have := hfr hj; omega)).trans
        ((h0 _ (by omega)).trans (hs.okB.scatter_fr (fun _ => (0 : K)) d.yFX hk).symm))
      rw [Nat.add_left_cancel e] at hB
      exact hB (hs.fx_spec hj).2
    · exact (w2.2.1 k hk).trans (hs.okB.scatter_fx _ _ hk).symm
  · rcases hs.casesC hk with ⟨hC, j, hj, rfl⟩ | ⟨_, j, hj, rfl⟩
    · refine (w3.2 _ fun l hl => hne (by omega) (by have := hac hl; omega) fun e => ?_).trans
        ((w2.2.2 _ (fun l hl => hne (by omega) (by have := hfx hl; omega) (by have := hfx hl; omega)) fun l hl => hne (by omega) (by have := hfx hl; omega) (by have := hfx hl; omega)).trans
        ((w1.2 _ fun l hl => hne (by omega) (by have := hfr hl; omega) (by have := hfr hl; omega)).trans
        ((h0 _ (by omega)).trans (hs.okC.scatter_fr (fun _ => (0 : K)) d.yAC hj).symm)))
      rw [Nat.add_left_cancel e] at hC
      exact hC (hs.ac_spec hl).2
    · exact (w3.1 j hj).trans (hs.okC.scatter_fx _ _ hj).symm
  · exact (w3.2 q fun j hj => hq _ (by have := hac hj; omega)).trans ((w2.2.2 q (fun j hj => hq _ (by have := hfx hj; omega))
      fun j hj => hq _ (by have := hfx hj; omega)).trans (w1.2 q fun j hj => hq _ (by have := hfr hj; omega)))

theorem heldAt_self (w : WS) (b : Nat → K) : heldAt w b b = b := by
  funext i
  unfold heldAt
  exact ite_self _

/-- What is stored for a disturbance -/
theorem reaction_applied {s : QPC K} (hf : s.Facs) (hdir : ∀ (h : Shift K) {d : Dir K},
      s.determineStepDirection h.g h.lbA h.ubA h.lb h.ub false false = .ok (.ok d) → s.DirOK h false false d) {J : Nat → Nat → K}
    (hJ : IsReaction s.nV s.nC s.Heff s.A s.InB s.InC J) {v : Nat → K} {d : Dir K} (hd : s.reaction v = .ok (.ok d)) {pos : Nat → Nat} {a : Nat → K}
    (hpos : ∀ i < 2 * s.nV + s.nC, ∀ j < 2 * s.nV + s.nC, pos i = pos j → i = j) (h0 : ∀ i < 2 * s.nV + s.nC, a (pos i) = 0) :
    (∀ i < 2 * s.nV + s.nC, s.storeReaction d pos a (pos i) = applied s.nV s.nC J v i) ∧
    ∀ q, (∀ i < 2 * s.nV + s.nC, q ≠ pos i) → s.storeReaction d pos a q = a q := by
  obtain ⟨h1, h2, h3, h4⟩ := storeReaction_spec hf.shape d hpos h0
  refine ⟨fun i hi => ?_, h4⟩
  have hk := (hdir ⟨v, fun i => v (s.nV + i), fun i => v (s.nV + i), fun k => v (2 * s.nV + k), fun k => v (2 * s.nV + k)⟩ hd).kkt hf.shape
  simp only [heldAt_self] at hk
  obtain ⟨e1, e2, e3⟩ := hJ.unique _ _ _ _ hk
  rcases Nat.lt_or_ge i s.nV with hi1 | hi1
  · rw [h1 i hi1, e1 i hi1]
  · rcases Nat.lt_or_ge i (2 * s.nV) with hi2 | hi2
    · obtain ⟨j, rfl⟩ : ∃ j, i = s.nV + j := ⟨i - s.nV, by omega⟩
      rw [h2 j (by omega), e2 j (by omega)]
    · obtain ⟨j, rfl⟩ : ∃ j, i = 2 * s.nV + j := ⟨i - 2 * s.nV, by omega⟩
      rw [h3 j (by omega), e3 j (by omega)]

theorem reactionLoop_succ {s : QPC K} {src : Nat → Nat → K} {pos : Nat → Nat → Nat} {m run3 : Nat} {a : Nat → K} {p : ReturnValue × (Nat → K)}
    (h : s.reactionLoop src pos (m+1) run3 a = .ok p) :
    (∃ d, s.reaction (src run3) = .ok (.ok d) ∧ s.reactionLoop src pos m (run3+1) (s.storeReaction d (pos run3) a) = .ok p) ∨
    ∃ r, r ≠ SUCCESSFUL_RETURN ∧ p = (r, a) := by
  unfold reactionLoop at h
  rw [Res.bind_eq_ok] at h
  obtain ⟨o, ho, h⟩ := h
  cases o with
  | ok d => exact Or.inl ⟨d, ho, h⟩
  | error r =>
    cases h
    exact Or.inr ⟨r, (determineStepDirection_code ho).2, rfl⟩

/-- A loop over the disturbances: every one is mapped to the reaction. -/
theorem reactionLoop_spec {s : QPC K} (hf : s.Facs) (hdir : ∀ (h : Shift K) {d : Dir K},
      s.determineStepDirection h.g h.lbA h.ubA h.lb h.ub false false = .ok (.ok d) → s.DirOK h false false d) {J : Nat → Nat → K}
    (hJ : IsReaction s.nV s.nC s.Heff s.A s.InB s.InC J) {src : Nat → Nat → K} {pos : Nat → Nat → Nat} {N : Nat}
    (hpos : ∀ r < N, ∀ r' < N, ∀ i < 2 * s.nV + s.nC, ∀ j < 2 * s.nV + s.nC, pos r i = pos r' j → r = r' ∧ i = j) :
    ∀ (m run3 : Nat) (a : Nat → K) {a' : Nat → K}, run3 + m = N → (∀ r, run3 ≤ r → r < N → ∀ i < 2 * s.nV + s.nC, a (pos r i) = 0) →
    s.reactionLoop src pos m run3 a = .ok (SUCCESSFUL_RETURN, a') →
    (∀ r, run3 ≤ r → r < N → ∀ i < 2 * s.nV + s.nC, a' (pos r i) = applied s.nV s.nC J (src r) i) ∧
    ∀ q, (∀ r, run3 ≤ r → r < N → ∀ i < 2 * s.nV + s.nC, q ≠ pos r i) → a' q = a q := by
  intro m
  induction m with
  | zero =>
    intro run3 a a' hN _ h
    unfold reactionLoop at h
    cases h
    exact ⟨fun r h1 h2 => by omega, fun _ _ => rfl⟩
  | succ m ih =>
    intro run3 a a' hN h0 h
    rcases reactionLoop_succ h with ⟨d, hd, h⟩ | ⟨r, hr, e⟩
    · obtain ⟨e1, e2⟩ := reaction_applied hf hdir hJ hd (pos := pos run3) (fun i hi j hj e => (hpos run3 (by omega) run3 (by omega) i hi j hj e).2)
        (h0 run3 (Nat.le_refl _) (by omega))
      have hother : ∀ r, run3 < r → r < N → ∀ i < 2 * s.nV + s.nC, ∀ j < 2 * s.nV + s.nC, pos r i ≠ pos run3 j := fun r h1 h2 i hi j hj e => by
        have := (hpos r h2 run3 (by omega) i hi j hj e).1
        omega
      obtain ⟨i1, i2⟩ := ih (run3+1) _ (by omega) (fun r h1 h2 i hi => (e2 _ fun j hj => hother r h1 h2 i hi j hj).trans (h0 r (by omega) h2 i hi)) h
      refine ⟨fun r h1 h2 i hi => ?_, fun q hq => ?_⟩
      · rcases Nat.lt_or_ge run3 r with hr | hr
        · exact i1 r hr h2 i hi
        · obtain rfl : r = run3 := by omega
          exact (i2 _ fun r' h3 h4 j hj e => hother r' h3 h4 j hj i hi e.symm).trans (e1 i hi)
      · exact (i2 q fun r h1 h2 i hi => hq r (by omega) h2 i hi).trans (e2 q fun i hi => hq run3 (Nat.le_refl _) (by omega) i hi)
    · exact absurd (congrArg Prod.fst e).symm hr

theorem place_inj {N r r' i j : Nat} (hi : i < N) (hj : j < N) (e : r * N + i = r' * N + j) : r = r' ∧ i = j := by
  have h0 : 0 < N := by omega
  have e1 : (r * N + i) / N = r := by rw [Nat.mul_comm, Nat.mul_add_div h0, Nat.div_eq_of_lt hi, Nat.add_zero]
  have e2 : (r' * N + j) / N = r' := by rw [Nat.mul_comm, Nat.mul_add_div h0, Nat.div_eq_of_lt hj, Nat.add_zero]
  have hr : r = r' := by rw [← e1, ← e2, e]
  subst hr
  exact ⟨rfl, by omega⟩

theorem loop_zero (a : Nat → K) : ∀ N, ∀ i < N, loop (fun i a => updA a i 0) N a i = 0 := by
  intro N
  induction N with
  | zero => intro i hi; omega
  | succ N ih =>
    intro i hi
    show updA _ N 0 i = 0
    by_cases e : i = N
    · rw [e]; exact updA_same _ _ _
    · rw [updA_ne _ _ e]; exact ih i (by omega)

/-- The result of the two loops -/
theorem getVarianceCovariance_spec {s : QPC K} (hf : s.Facs) (hdir : ∀ (h : Shift K) {d : Dir K},
      s.determineStepDirection h.g h.lbA h.ubA h.lb h.ub false false = .ok (.ok d) → s.DirOK h false false d) {J : Nat → Nat → K}
    (hJ : IsReaction s.nV s.nC s.Heff s.A s.InB s.InC J) {V P P' : Nat → K} (h : s.getVarianceCovariance V P = .ok (SUCCESSFUL_RETURN, P')) :
    ∀ i < 2 * s.nV + s.nC, ∀ c < 2 * s.nV + s.nC, P' (i * (2 * s.nV + s.nC) + c) =
      ∑ r ∈ range (2 * s.nV + s.nC), ∑ k ∈ range (2 * s.nV + s.nC), J i r * V (r * (2 * s.nV + s.nC) + k) * J c k := by
  unfold getVarianceCovariance at h
  dsimp only at h
  have hlt : ∀ r < 2 * s.nV + s.nC, ∀ i < 2 * s.nV + s.nC, r * (2 * s.nV + s.nC) + i < (2 * s.nV + s.nC) * (2 * s.nV + s.nC) := fun r hr i hi => by
    have := Nat.mul_le_mul_right (2 * s.nV + s.nC) (show r + 1 ≤ 2 * s.nV + s.nC from hr)
    rw [Nat.add_mul, Nat.one_mul] at this
    omega
  rw [Res.bind_eq_ok] at h
  obtain ⟨⟨r, a⟩, h1, h⟩ := h
  dsimp only at h
  split at h
  · rename_i hr
    simp only [Res.ok.injEq, Prod.mk.injEq] at h
    exact absurd h.1 hr
  · rename_i hr
    obtain rfl := not_not.1 hr
    have s1 := reactionLoop_spec hf hdir hJ (fun r hr r' hr' i hi j hj e => place_inj hi hj e) _ 0 _ (Nat.zero_add _)
      (fun r _ hr i hi => loop_zero _ _ _ (hlt r hr i hi)) h1
    have s2 := reactionLoop_spec hf hdir hJ (fun r hr r' hr' i hi j hj e => (place_inj hr hr' (by rw [Nat.add_comm, e, Nat.add_comm])).symm) _ 0 _ (Nat.zero_add _)
      (fun r _ hr i hi => loop_zero _ _ _ (by rw [Nat.add_comm]; exact hlt i hi r hr)) h
    intro i hi c hc
    have e := s2.1 c (Nat.zero_le _) hc i hi
    rw [Nat.add_comm] at e
    rw [e]
    unfold applied
    refine sum_congr rfl fun r hr => ?_
    rw [mem_range] at hr
    have e := s1.1 r (Nat.zero_le _) hr c hc
    beta_reduce
    rw [Nat.add_comm c, e]
    unfold applied
    rw [mul_sum]
    exact sum_congr rfl fun k _ => by ring

end QpOASES.QPC

namespace QpOASES.Props
open Finset Spec ReturnValue SubjectToStatus SubjectToType HessianType QProblemStatus
open QpOASES.QPC

set_option linter.unusedSectionVars false

variable {K : Type} [Field K] [LinearOrder K] [IsStrictOrderedRing K]

/-- **C64** (part): if the call succeeds in a state between calls, there is a matrix `J` which maps every disturbance of `(g, b, bA)` to the one and
only reaction of the solution and its multipliers for the current working set, and the matrix returned is `J V J'`; the Hessian `H` differs from
that of the user by at most `EPS` per entry (see C34). -/
theorem C64_covariance_partial {sq : K → K} {fuel n m : Nat} {M A : Nat → Nat → K} {l0 u0 : Nat → K} {s : QPC K} (h : SessionC sq fuel n m M A l0 u0 s) :
    ∃ H : Nat → Nat → K, (∀ i < n, ∀ j < n, |H i j - M i j| ≤ EPS) ∧ ∀ (V P : Nat → K) {P' : Nat → K},
      s.getVarianceCovariance V P = .ok (SUCCESSFUL_RETURN, P') → ∃ J : Nat → Nat → K,
        IsReaction n m H A (fun i => s.bounds.getStatus i ≠ ST_INACTIVE) (fun k => s.cons.getStatus k ≠ ST_INACTIVE) J ∧
        ∀ i < 2 * n + m, ∀ c < 2 * n + m, P' (i * (2 * n + m) + c) =
          ∑ r ∈ range (2 * n + m), ∑ k ∈ range (2 * n + m), J i r * V (r * (2 * n + m) + k) * J c k := by
  have hl := h.live
  refine ⟨s.Heff, hl.hess, fun V P P' hP => ?_⟩
  have hf := hl.good.facs
  have hs := hf.shape
  have hO := hl.params.options
  have hdir : ∀ (h : Shift K) {d : Dir K}, s.determineStepDirection h.g h.lbA h.ubA h.lb h.ub false false = .ok (.ok d) → s.DirOK h false false d :=
    fun h d hd => determineStepDirection_spec hf hO.iterRef hO.refSteps h false false hd
  obtain rfl := hl.nV
  obtain rfl := hl.nC
  have hJ : ∃ J, IsReaction s.nV s.nC s.Heff s.A s.InB s.InC J := by
    refine exists_reaction fun x y z hk => ?_
    rcases Nat.eq_zero_or_pos (2 * s.nV + s.nC) with h0 | h0
    · exact ⟨fun i hi => by omega, fun i hi => by omega, fun i hi => by omega⟩
    · refine hf.unique ?_ hk
      have hP := hP
      unfold getVarianceCovariance at hP
      dsimp only at hP
      rw [Res.bind_eq_ok] at hP
      obtain ⟨⟨r, a⟩, h1, hP⟩ := hP
      obtain ⟨N, hN⟩ : ∃ N, 2 * s.nV + s.nC = N + 1 := ⟨2 * s.nV + s.nC - 1, by omega⟩
      rw [hN] at h1
      rcases reactionLoop_succ h1 with ⟨d, hd, _⟩ | ⟨r', hr, e⟩
      · exact determineStepDirection_regular hf hO.refSteps hd
      · obtain rfl : r = r' := congrArg Prod.fst e
        dsimp only at hP
        rw [if_pos hr] at hP
        simp only [Res.ok.injEq, Prod.mk.injEq] at hP
        exact absurd hP.1 hr
  obtain ⟨J, hJ⟩ := hJ
  have hB : ∀ i < s.nV, (s.bounds.getStatus i ≠ ST_INACTIVE ↔ s.InB i) := fun i hi => by rw [WS.getStatus_of_lt (by rw [hs.nB]; exact hi)]; rfl
  have hC : ∀ k < s.nC, (s.cons.getStatus k ≠ ST_INACTIVE ↔ s.InC k) := fun k hk => by rw [WS.getStatus_of_lt (by rw [hs.nC]; exact hk)]; rfl
  have hrow : ∀ (x : Nat → K), ∀ k < s.nC, QP.row s.nV A x k = QP.row s.nV s.A x k := fun x k hk => by
    unfold QP.row; rw [hl.mat k hk]
  have hcol : ∀ (z : Nat → K) i, ∑ k ∈ range s.nC, A k i * z k = ∑ k ∈ range s.nC, s.A k i * z k := fun z i =>
    sum_congr rfl fun k hk => by rw [hl.mat k (mem_range.1 hk)]
  have hiff : ∀ g b c x y z : Nat → K, EqualityKKT s.nV s.nC s.Heff A (fun i => s.bounds.getStatus i ≠ ST_INACTIVE) (fun k => s.cons.getStatus k ≠ ST_INACTIVE)
      g b c x y z ↔ EqualityKKT s.nV s.nC s.Heff s.A s.InB s.InC g b c x y z := fun g b c x y z =>
    ⟨fun e => ⟨⟨fun i hi hb => e.fixed i hi ((hB i hi).2 hb), fun k hk hc => (hrow _ _ hk).symm.trans (e.active k hk ((hC k hk).2 hc))⟩,
      fun i hi => (e.stat i hi).trans (congrArg _ (hcol z i)), fun i hi hb => e.free i hi fun h => hb ((hB i hi).1 h),
      fun k hk hc => e.inactive k hk fun h => hc ((hC k hk).1 h)⟩,
    fun e => ⟨⟨fun i hi hb => e.fixed i hi ((hB i hi).1 hb), fun k hk hc => (hrow _ _ hk).trans (e.active k hk ((hC k hk).1 hc))⟩,
      fun i hi => (e.stat i hi).trans (congrArg _ (hcol z i).symm), fun i hi hb => e.free i hi fun h => hb ((hB i hi).2 h),
      fun k hk hc => e.inactive k hk fun h => hc ((hC k hk).2 h)⟩⟩
  exact ⟨J, ⟨fun d => (hiff _ _ _ _ _ _).2 (hJ.solves d), fun d x y z e => hJ.unique d x y z ((hiff _ _ _ _ _ _).1 e)⟩,
    getVarianceCovariance_spec hf hdir hJ hP⟩

/-- **C64 is violated** for problems with bounds only: the function is not implemented for them. -/
theorem C64_violated (s : QPB K) (V P : Nat → K) : s.getVarianceCovariance V P = (RET_NOT_YET_IMPLEMENTED, P) := rfl

/-! ### the hypotheses are met -/
section
open QpOASES.Runs
open QPB (lowerOf upperOf)

/-- After the cold start of C34 (no variable fixed, constraint active): the covariance matrix of the data is the identity. -/
def cov1 : Res (ReturnValue × (Nat → ℚ)) := gen1.bind fun o =>
  o.s.getVarianceCovariance (fun q => if q / 5 = q % 5 then 1 else 0) fun _ => 7

example : ∃ o, gen1 = .ok o ∧ SessionC rootC 5 2 1 gen0H gen0A (lowerOf (some (vec [-50]))) (upperOf (some (vec [5]))) o.s ∧
    holds cov1 (fun p => decide (p.1 = SUCCESSFUL_RETURN ∧ 0 < p.2 0 ∧ p.2 1 = p.2 5 ∧ p.2 10 = 0 ∧ 0 < p.2 24)) = true := by
  obtain ⟨o, e, _, _, _, hs⟩ := gen1_session
  exact ⟨o, e, hs, by decide +kernel⟩

end

end QpOASES.Props
