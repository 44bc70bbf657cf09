import Verif.Proofs.QPCAdd
import Verif.Proofs.QPBFar

/-!
A member leaves the working set along a direction without curvature: the iterate jumps to the next limit, and the member found there
enters.
-/
namespace QpOASES
open Finset Props SubjectToStatus SubjectToType ReturnValue HessianType

set_option linter.unusedSectionVars false

variable {K : Type} [Field K] [LinearOrder K] [IsStrictOrderedRing K]

namespace SideOK
variable {w : WS} {obs : Nat → Prop} {v l u y : Nat → K} {n : Nat}

/-- The values of the inactive members change within their limits. -/
theorem move (h : SideOK w obs v l u y n) {v' : Nat → K} (ha : ∀ i < n, w.status i ≠ ST_INACTIVE → v' i = v i)
    (hi : ∀ i < n, w.status i = ST_INACTIVE → obs i → (w.noLower = false → l i ≤ v' i) ∧ (w.noUpper = false → v' i ≤ u i)) :
    SideOK w obs v' l u y n := by
  refine ⟨fun i hn hs => ?_, fun i hn hs => ?_, fun i hn hs => ⟨(h.inactive i hn hs).1, hi i hn hs⟩, h.box, h.eq⟩
  · rw [ha i hn (by rw [hs]; decide)]; exact h.lower i hn hs
  · rw [ha i hn (by rw [hs]; decide)]; exact h.upper i hn hs

end SideOK

namespace QPC

/-! ### the ratio tests -/

/-- The ratio test notices a member that approaches its limit. -/
def Seen (eN eD num den : K) : Prop := den ≤ 0 ∨ (0 ≤ num ∧ eN < num ∧ eD < den)

theorem plainRatioTest_spec {num den : Nat → K} {eN eD : K} (hd : 0 ≤ eD) : ∀ (idx : List Nat) (i : Nat) (t : K) (bc : Option Nat), 0 ≤ t →
    (∀ k < idx.length, Seen eN eD (num (i+k)) (den (i+k))) →
    ∃ t' b, plainRatioTest num den eN eD idx i t bc = .ok (t', b) ∧ 0 ≤ t' ∧ t' ≤ t ∧
      (∀ k < idx.length, 0 < den (i+k) → t' * den (i+k) ≤ num (i+k)) ∧
      ((t' = t ∧ b = bc) ∨ (t' < t ∧ ∃ k < idx.length, b = some (idx.getD k 0) ∧ num (i+k) = t' * den (i+k))) := by
  intro idx
  induction idx with
  | nil => exact fun i t bc ht _ => ⟨t, bc, rfl, ht, le_refl _, fun k hk => absurd hk (by simp), Or.inl ⟨rfl, rfl⟩⟩
  | cons ii idx ih =>
    intro i t bc ht hs
    have hs' : ∀ k < idx.length, Seen eN eD (num (i+1+k)) (den (i+1+k)) := by
      intro k hk
      have := hs (k+1) (by simp only [List.length_cons]; omega)
      rwa [show i + (k+1) = i+1+k by omega] at this
    have h0 := hs 0 (by simp)
    rw [Nat.add_zero] at h0
    unfold plainRatioTest
    by_cases hc : num i > eN ∧ den i > eD ∧ t * den i > num i
    · rw [if_pos hc]
      have hp : 0 < den i := lt_of_le_of_lt hd hc.2.1
      rw [show cdiv (num i) (den i) = .ok (num i / den i) from by unfold cdiv; rw [if_neg hp.ne']]
      rw [Res.bind_ok]
      have hn : 0 ≤ num i := by
        rcases h0 with h0 | h0
        · exact absurd hp (not_lt.2 h0)
        · exact h0.1
      have hq : num i / den i < t := by rw [div_lt_iff₀ hp]; exact hc.2.2
      have hq0 : 0 ≤ num i / den i := div_nonneg hn hp.le
      have hqe : num i / den i * den i = num i := div_mul_cancel₀ _ hp.ne'
      obtain ⟨t', b, e, p1, p2, p3, p4⟩ := ih (i+1) (num i / den i) (some ii) hq0 hs'
      refine ⟨t', b, e, p1, p2.trans hq.le, ?_, Or.inr ⟨lt_of_le_of_lt p2 hq, ?_⟩⟩
      · intro k hk
        cases k with
        | zero =>
          intro _
          rw [Nat.add_zero]
          calc t' * den i ≤ num i / den i * den i := mul_le_mul_of_nonneg_right p2 hp.le
            _ = num i := hqe
        | succ k =>
          rw [show i + (k+1) = i+1+k by omega]
          exact p3 k (by simp only [List.length_cons] at hk; omega)
      · rcases p4 with ⟨p4, p5⟩ | ⟨_, k, hk, p5, p6⟩
        · exact ⟨0, by simp, by rw [p5]; rfl, by rw [Nat.add_zero, p4, hqe]⟩
        · refine ⟨k+1, by simp only [List.length_cons]; omega, ?_, ?_⟩
          · rw [p5]; simp
          · rw [show i + (k+1) = i+1+k by omega]; exact p6
    · rw [if_neg hc]
      obtain ⟨t', b, e, p1, p2, p3, p4⟩ := ih (i+1) t bc ht hs'
      refine ⟨t', b, e, p1, p2, ?_, ?_⟩
      · intro k hk
        cases k with
        | zero =>
          intro hp
          rw [Nat.add_zero] at hp ⊢
          rcases h0 with h0 | ⟨_, h1, h2⟩
          · exact absurd hp (not_lt.2 h0)
          · have : t * den i ≤ num i := not_lt.1 fun h3 => hc ⟨h1, h2, h3⟩
            exact (mul_le_mul_of_nonneg_right p2 hp.le).trans this
        | succ k =>
          rw [show i + (k+1) = i+1+k by omega]
          exact p3 k (by simp only [List.length_cons] at hk; omega)
      · rcases p4 with p4 | ⟨p4, k, hk, p5, p6⟩
        · exact Or.inl p4
        · refine Or.inr ⟨p4, k+1, by simp only [List.length_cons]; omega, ?_, ?_⟩
          · rw [p5]; simp
          · rw [show i + (k+1) = i+1+k by omega]; exact p6

/-- A ratio test over the inactive members followed by one for the leaving member. -/
theorem plainPair {num den : Nat → K} {eN eD J num1 : K} {idx : List Nat} {r : Nat} (c : Prop) [Decidable c] (hd : 0 ≤ eD) (hJ : 0 ≤ J)
    (hs : ∀ k < idx.length, Seen eN eD (num k) (den k)) (hs1 : c → Seen eN eD num1 1) :
    ∃ t b t1 b1, plainRatioTest num den eN eD idx 0 J none = .ok (t, b) ∧
      (if c then plainRatioTest (fun _ => num1) (fun _ => 1) eN eD [r] 0 t b else .ok (t, b)) = .ok (t1, b1) ∧ 0 ≤ t1 ∧ t1 ≤ J ∧
      (∀ k < idx.length, 0 < den k → t1 * den k ≤ num k) ∧ (c → t1 ≤ num1) ∧
      (t1 < J → ∃ i, b1 = some i ∧ ((∃ k < idx.length, i = idx.getD k 0 ∧ num k = t1 * den k) ∨ (c ∧ i = r ∧ num1 = t1))) := by
  obtain ⟨t, b, e, p1, p2, p3, p4⟩ := plainRatioTest_spec (num := num) (den := den) (eN := eN) hd idx 0 J none hJ
    (fun k hk => by rw [Nat.zero_add]; exact hs k hk)
  have p3' : ∀ k < idx.length, 0 < den k → t * den k ≤ num k := fun k hk h => by
    have := p3 k hk
    rw [Nat.zero_add] at this
    exact this h
  have p4' : t < J → ∃ i, b = some i ∧ ∃ k < idx.length, i = idx.getD k 0 ∧ num k = t * den k := by
    intro h
    rcases p4 with ⟨p4, _⟩ | ⟨_, k, hk, p5, p6⟩
    · exact absurd p4 h.ne
    · rw [Nat.zero_add] at p6
      exact ⟨_, p5, k, hk, rfl, p6⟩
  by_cases hc : c
  · obtain ⟨t1, b1, e1, q1, q2, q3, q4⟩ := plainRatioTest_spec (num := fun _ => num1) (den := fun _ => (1 : K)) (eN := eN) hd [r] 0 t b p1
      (fun _ _ => hs1 hc)
    have q3' : t1 ≤ num1 := by
      have := q3 0 (by simp) one_pos
      rwa [mul_one] at this
    refine ⟨t, b, t1, b1, e, by rw [if_pos hc]; exact e1, q1, q2.trans p2, fun k hk h => ?_, fun _ => q3', fun h => ?_⟩
    · exact (mul_le_mul_of_nonneg_right q2 h.le).trans (p3' k hk h)
    · rcases q4 with ⟨q4, q5⟩ | ⟨_, k, hk, q5, q6⟩
      · subst q4 q5
        obtain ⟨i, g1, g2⟩ := p4' h
        exact ⟨i, g1, Or.inl g2⟩
      · have hk0 : k = 0 := by simp only [List.length_cons, List.length_nil] at hk; omega
        subst hk0
        exact ⟨r, q5, Or.inr ⟨hc, rfl, by rw [mul_one] at q6; exact q6⟩⟩
  · refine ⟨t, b, t, b, e, by rw [if_neg hc], p1, p2, p3', fun h => absurd h hc, fun h => ?_⟩
    obtain ⟨i, g1, g2⟩ := p4' h
    exact ⟨i, g1, Or.inl g2⟩

/-- Every member that approaches a limit along `d` is noticed by the ratio tests. -/
structure AllSeen (s : QPC K) (b : Bool) (k : Nat) (d : Dir K) : Prop where
  upB : ∀ j < s.nFR, Seen s.options.epsNum s.options.epsDen (s.ub (s.fr j) - s.x (s.fr j)) (d.xFR j)
  loB : ∀ j < s.nFR, Seen s.options.epsNum s.options.epsDen (s.x (s.fr j) - s.lb (s.fr j)) (-d.xFR j)
  upC : ∀ j < s.nIAC, Seen s.options.epsNum s.options.epsDen (s.Axu (s.iac j)) (s.dirAx d (s.iac j))
  loC : ∀ j < s.nIAC, Seen s.options.epsNum s.options.epsDen (s.Axl (s.iac j)) (-s.dirAx d (s.iac j))
  ownUB : b = true → s.bounds.getStatus k = ST_LOWER → Seen s.options.epsNum s.options.epsDen (s.ub k - s.x k) 1
  ownLB : b = true → s.bounds.getStatus k = ST_UPPER → Seen s.options.epsNum s.options.epsDen (s.x k - s.lb k) 1
  ownUC : b = false → s.cons.getStatus k = ST_LOWER → Seen s.options.epsNum s.options.epsDen (s.Axu k) 1
  ownLC : b = false → s.cons.getStatus k = ST_UPPER → Seen s.options.epsNum s.options.epsDen (s.Axl k) 1

/-- No limit is exceeded by a jump of length `t`. -/
structure JumpOK (s : QPC K) (b : Bool) (k : Nat) (d : Dir K) (t : K) : Prop where
  upB : ∀ j < s.nFR, 0 < d.xFR j → t * d.xFR j ≤ s.ub (s.fr j) - s.x (s.fr j)
  loB : ∀ j < s.nFR, 0 < -d.xFR j → t * -d.xFR j ≤ s.x (s.fr j) - s.lb (s.fr j)
  upC : ∀ j < s.nIAC, 0 < s.dirAx d (s.iac j) → t * s.dirAx d (s.iac j) ≤ s.Axu (s.iac j)
  loC : ∀ j < s.nIAC, 0 < -s.dirAx d (s.iac j) → t * -s.dirAx d (s.iac j) ≤ s.Axl (s.iac j)
  ownUB : b = true → s.bounds.getStatus k = ST_LOWER → t ≤ s.ub k - s.x k
  ownLB : b = true → s.bounds.getStatus k = ST_UPPER → t ≤ s.x k - s.lb k
  ownUC : b = false → s.cons.getStatus k = ST_LOWER → t ≤ s.Axu k
  ownLC : b = false → s.cons.getStatus k = ST_UPPER → t ≤ s.Axl k

/-- The member that stops the jump. -/
def JumpHit (s : QPC K) (b : Bool) (k : Nat) (d : Dir K) (t : K) : Change → Prop
  | ⟨true, i, ST_UPPER⟩ => (∃ j < s.nFR, i = s.fr j ∧ s.ub i - s.x i = t * d.xFR j) ∨
      ((b = true ∧ s.bounds.getStatus k = ST_LOWER) ∧ i = k ∧ s.ub k - s.x k = t)
  | ⟨true, i, ST_LOWER⟩ => (∃ j < s.nFR, i = s.fr j ∧ s.x i - s.lb i = t * -d.xFR j) ∨
      ((b = true ∧ s.bounds.getStatus k = ST_UPPER) ∧ i = k ∧ s.x k - s.lb k = t)
  | ⟨false, i, ST_UPPER⟩ => (∃ j < s.nIAC, i = s.iac j ∧ s.Axu i = t * s.dirAx d i) ∨
      ((b = false ∧ s.cons.getStatus k = ST_LOWER) ∧ i = k ∧ s.Axu k = t)
  | ⟨false, i, ST_LOWER⟩ => (∃ j < s.nIAC, i = s.iac j ∧ s.Axl i = t * -s.dirAx d i) ∨
      ((b = false ∧ s.cons.getStatus k = ST_UPPER) ∧ i = k ∧ s.Axl k = t)
  | _ => False

theorem dirAx_split {s : QPC K} (hs : s.Shape) (d : Dir K) (i : Nat) :
    sumTo (fun k => s.A i (s.fx k) * d.xFX k) s.nFX + sumTo (fun k => s.A i (s.fr k) * d.xFR k) s.nFR = s.dirAx d i := by
  unfold dirAx
  rw [prodA_eq, sumTo_eq, sumTo_eq, ← hs.nB, hs.okB.sum, add_comm]
  congr 1
  · refine sum_congr rfl fun k hk => ?_
    rw [show s.bounds.fr k = s.fr k from rfl, dirX_fr hs.okB d (mem_range.1 hk)]
  · refine sum_congr rfl fun k hk => ?_
    rw [show s.bounds.fx k = s.fx k from rfl, dirX_fx hs.okB d (mem_range.1 hk)]

theorem ite_bind_ok' {α β : Type} {c : Prop} [Decidable c] {m : Res α} {a r : α} {f : α → Res β} (h : (if c then m else .ok a) = .ok r) :
    (if c then (m >>= f) else (Res.ok a >>= f)) = (Res.ok r >>= f) := by
  by_cases hc : c
  · rw [if_pos hc] at h ⊢; rw [h]
  · rw [if_neg hc] at h ⊢
    cases h; rfl

/-- What is known of the shortest jump found so far -/
def Picked (s : QPC K) (b : Bool) (k : Nat) (d : Dir K) (p : K × Option Change) : Prop :=
  0 ≤ p.1 ∧ p.1 ≤ s.options.maxPrimalJump ∧ (p.1 < s.options.maxPrimalJump → ∃ c, p.2 = some c ∧ JumpHit s b k d p.1 c)

theorem Picked.next {s : QPC K} {bb : Bool} {k : Nat} {d : Dir K} {p : K × Option Change} (h : Picked s bb k d p) {t : K} {b : Option Nat}
    {f : Nat → Change} (h0 : 0 ≤ t) (h1 : t ≤ s.options.maxPrimalJump)
    (h2 : t < s.options.maxPrimalJump → ∃ i, b = some i ∧ JumpHit s bb k d t (f i)) :
    Picked s bb k d (if t < p.1 then (t, b.map f) else p) ∧ (if t < p.1 then (t, b.map f) else p).1 ≤ p.1 ∧
    (if t < p.1 then (t, b.map f) else p).1 ≤ t := by
  by_cases hlt : t < p.1
  · rw [if_pos hlt]
    refine ⟨⟨h0, h1, fun h3 => ?_⟩, hlt.le, le_refl _⟩
    obtain ⟨i, e, g⟩ := h2 h3
    exact ⟨f i, by rw [e]; rfl, g⟩
  · rw [if_neg hlt]
    exact ⟨h, le_refl _, not_lt.1 hlt⟩

theorem curvatureTests_spec {s : QPC K} (hs : s.Shape) (hd : 0 ≤ s.options.epsDen) (hJ : 0 ≤ s.options.maxPrimalJump) {b : Bool} {k : Nat}
    {d : Dir K} (h : AllSeen s b k d) : ∃ t c, s.curvatureTests b k d = .ok (t, c) ∧ 0 ≤ t ∧ JumpOK s b k d t ∧
      (t < s.options.maxPrimalJump → ∃ c', c = some c' ∧ JumpHit s b k d t c') := by
  obtain ⟨t1, b1, tU, bU, e1, e1', u0, uJ, u1, u2, u3⟩ := plainPair (r := k) (b = true ∧ s.bounds.getStatus k = ST_LOWER) hd hJ h.upB (fun hc => h.ownUB hc.1 hc.2)
  obtain ⟨t2, b2, tL, bL, e2, e2', l0, lJ, l1, l2, l3⟩ := plainPair (r := k) (b = true ∧ s.bounds.getStatus k = ST_UPPER) hd hJ h.loB (fun hc => h.ownLB hc.1 hc.2)
  obtain ⟨t3, b3, tCU, bCU, e3, e3', cu0, cuJ, cu1, cu2, cu3⟩ := plainPair (r := k) (b = false ∧ s.cons.getStatus k = ST_LOWER) hd hJ h.upC (fun hc => h.ownUC hc.1 hc.2)
  obtain ⟨t4, b4, tCL, bCL, e4, e4', cl0, clJ, cl1, cl2, cl3⟩ := plainPair (r := k) (b = false ∧ s.cons.getStatus k = ST_UPPER) hd hJ h.loC (fun hc => h.ownLC hc.1 hc.2)
  unfold curvatureTests
  dsimp only
  have eAs : (fun i => sumTo (fun k => s.A (s.iac i) (s.fx k) * d.xFX k) s.nFX + sumTo (fun k => s.A (s.iac i) (s.fr k) * d.xFR k) s.nFR) =
      fun i => s.dirAx d (s.iac i) := funext fun i => dirAx_split hs d _
  have eAs' : (fun i => -(sumTo (fun k => s.A (s.iac i) (s.fx k) * d.xFX k) s.nFX + sumTo (fun k => s.A (s.iac i) (s.fr k) * d.xFR k) s.nFR)) =
      fun i => -s.dirAx d (s.iac i) := funext fun i => by rw [dirAx_split hs d _]
  rw [eAs, eAs', e1, Res.bind_ok]
  rw [ite_bind_ok' e1', Res.bind_ok]
  rw [e2, Res.bind_ok, ite_bind_ok' e2', Res.bind_ok]
  rw [e3, Res.bind_ok, ite_bind_ok' e3', Res.bind_ok]
  rw [e4, Res.bind_ok, ite_bind_ok' e4', Res.bind_ok]
  have i0 : Picked s b k d (s.options.maxPrimalJump, none) := ⟨hJ, le_refl _, fun h => absurd h (lt_irrefl _)⟩
  obtain ⟨i1, a1, a1'⟩ := i0.next (t := tCU) (b := bCU) (f := fun k => ⟨false, k, ST_UPPER⟩) cu0 cuJ (fun hlt => by
    obtain ⟨i, g1, ⟨j, hj, g2, g3⟩ | ⟨hc, g2, g3⟩⟩ := cu3 hlt
    · exact ⟨i, g1, Or.inl ⟨j, hj, g2, by rw [g2]; exact g3⟩⟩
    · exact ⟨i, g1, Or.inr ⟨hc, g2, g3⟩⟩)
  generalize (if tCU < (s.options.maxPrimalJump, (none : Option Change)).1 then (tCU, bCU.map fun k => (⟨false, k, ST_UPPER⟩ : Change))
    else (s.options.maxPrimalJump, none)) = p1 at i1 a1 a1' ⊢
  obtain ⟨i2, a2, a2'⟩ := i1.next (t := tCL) (b := bCL) (f := fun k => ⟨false, k, ST_LOWER⟩) cl0 clJ (fun hlt => by
    obtain ⟨i, g1, ⟨j, hj, g2, g3⟩ | ⟨hc, g2, g3⟩⟩ := cl3 hlt
    · exact ⟨i, g1, Or.inl ⟨j, hj, g2, by rw [g2]; exact g3⟩⟩
    · exact ⟨i, g1, Or.inr ⟨hc, g2, g3⟩⟩)
  generalize (if tCL < p1.1 then (tCL, bCL.map fun k => (⟨false, k, ST_LOWER⟩ : Change)) else p1) = p2 at i2 a2 a2' ⊢
  obtain ⟨i3, a3, a3'⟩ := i2.next (t := tU) (b := bU) (f := fun k => ⟨true, k, ST_UPPER⟩) u0 uJ (fun hlt => by
    obtain ⟨i, g1, ⟨j, hj, g2, g3⟩ | ⟨hc, g2, g3⟩⟩ := u3 hlt
    · exact ⟨i, g1, Or.inl ⟨j, hj, g2, by rw [g2]; exact g3⟩⟩
    · exact ⟨i, g1, Or.inr ⟨hc, g2, g3⟩⟩)
  generalize (if tU < p2.1 then (tU, bU.map fun k => (⟨true, k, ST_UPPER⟩ : Change)) else p2) = p3 at i3 a3 a3' ⊢
  obtain ⟨i4, a4, a4'⟩ := i3.next (t := tL) (b := bL) (f := fun k => ⟨true, k, ST_LOWER⟩) l0 lJ (fun hlt => by
    obtain ⟨i, g1, ⟨j, hj, g2, g3⟩ | ⟨hc, g2, g3⟩⟩ := l3 hlt
    · exact ⟨i, g1, Or.inl ⟨j, hj, g2, by rw [g2]; exact g3⟩⟩
    · exact ⟨i, g1, Or.inr ⟨hc, g2, g3⟩⟩)
  generalize (if tL < p3.1 then (tL, bL.map fun k => (⟨true, k, ST_LOWER⟩ : Change)) else p3) = p4 at i4 a4 a4' ⊢
  have g3 := a4.trans a3'
  have g2 := (a4.trans a3).trans a2'
  have g1 := ((a4.trans a3).trans a2).trans a1'
  refine ⟨p4.1, p4.2, rfl, i4.1, ⟨?_, ?_, ?_, ?_, ?_, ?_, ?_, ?_⟩, i4.2.2⟩
  · exact fun j hj h0 => (mul_le_mul_of_nonneg_right g3 h0.le).trans (u1 j hj h0)
  · exact fun j hj h0 => (mul_le_mul_of_nonneg_right a4' h0.le).trans (l1 j hj h0)
  · exact fun j hj h0 => (mul_le_mul_of_nonneg_right g1 h0.le).trans (cu1 j hj h0)
  · exact fun j hj h0 => (mul_le_mul_of_nonneg_right g2 h0.le).trans (cl1 j hj h0)
  · exact fun h1 h2 => g3.trans (u2 ⟨h1, h2⟩)
  · exact fun h1 h2 => a4'.trans (l2 ⟨h1, h2⟩)
  · exact fun h1 h2 => g1.trans (cu2 ⟨h1, h2⟩)
  · exact fun h1 h2 => g2.trans (cl2 ⟨h1, h2⟩)

/-! ### the direction and the jump -/

theorem le_maxAbs {v : Nat → K} : ∀ {n i : Nat}, i < n → |v i| ≤ QPB.maxAbs v n := by
  intro n
  unfold QPB.maxAbs
  induction n with
  | zero => intro i hi; omega
  | succ n ih =>
    intro i hi
    rw [loop]
    have e : getAbs (v n) = |v n| := rfl
    rw [e]
    by_cases h : i = n
    · subst h
      split
      · exact le_refl _
      · next hn => exact not_lt.1 hn
    · have := ih (show i < n by omega)
      split
      · next hn => exact this.trans hn.le
      · exact this

theorem normY_zero {s : QPC K} {d : Dir K} (h : Dir.normY s d = 0) : (∀ k < s.nAC, d.yAC k = 0) ∧ ∀ k < s.nFX, d.yFX k = 0 := by
  unfold Dir.normY at h
  rw [QPB.getMax_eq] at h
  refine ⟨fun k hk => ?_, fun k hk => ?_⟩
  · have h1 := le_maxAbs (v := d.yAC) hk
    have h2 := le_max_left (QPB.maxAbs d.yAC s.nAC) (QPB.maxAbs d.yFX s.nFX)
    rw [h] at h2
    exact abs_eq_zero.1 (le_antisymm (h1.trans h2) (abs_nonneg _))
  · have h1 := le_maxAbs (v := d.yFX) hk
    have h2 := le_max_right (QPB.maxAbs d.yAC s.nAC) (QPB.maxAbs d.yFX s.nFX)
    rw [h] at h2
    exact abs_eq_zero.1 (le_antisymm (h1.trans h2) (abs_nonneg _))

/-- Along `d` the gradient does not change, and only the leaving member moves among the active ones, by one unit off its limit. -/
structure NullDir (s : QPC K) (b : Bool) (k : Nat) (d : Dir K) : Prop where
  flat : ∀ i < s.nV, ∑ j ∈ range s.nV, s.Heff i j * s.dirX d j = 0
  bounds : ∀ i ∈ s.bounds.fixed, s.dirX d i = if b = true ∧ i = k then (if s.bounds.getStatus k = ST_LOWER then 1 else -1) else 0
  cons : ∀ i ∈ s.cons.fixed, s.dirAx d i = if b = false ∧ i = k then (if s.cons.getStatus k = ST_LOWER then 1 else -1) else 0

theorem curvatureDir_null {s : QPC K} (hf : s.Facs) (hO : OptionsOK s.options) {b : Bool} {k : Nat} {d : Dir K}
    (hd : s.curvatureDir b k = .ok (.ok d)) (h0 : Dir.normY s d = 0) : NullDir s b k d := by
  obtain ⟨y1, y2⟩ := normY_zero h0
  have hflat : ∀ h : Shift K, h.g = (fun _ => 0) → ∀ bC bB, s.DirOK h bC bB d →
      ∀ i < s.nV, ∑ j ∈ range s.nV, s.Heff i j * s.dirX d j = 0 := by
    intro h hg bC bB hD i hi
    have e := hD.stat i hi
    rw [hg] at e
    have e1 : s.dirY d i = 0 := by
      unfold dirY WS.scatter
      split
      · rfl
      · next hn => 
        have hm : i ∈ s.bounds.fixed := by
          rcases hf.shape.okB.mem_iff.1 (show i < s.bounds.n by rw [hf.shape.nB]; exact hi) with h | h
          · exact absurd h hn
          · exact h
        exact y2 _ (WS.idxOf_fx_lt hm)
    have e2 : ∀ c < s.nC, s.dirYC d c = 0 := by
      intro c hc
      unfold dirYC WS.scatter
      split
      · rfl
      · next hn => 
        have hm : c ∈ s.cons.fixed := by
          rcases hf.shape.okC.mem_iff.1 (show c < s.cons.n by rw [hf.shape.nC]; exact hc) with h | h
          · exact absurd h hn
          · exact h
        exact y1 _ (WS.idxOf_fx_lt hm)
    rw [e1, show ∑ c ∈ range s.nC, s.A c i * s.dirYC d c = 0 from sum_eq_zero (fun c hc => by rw [e2 c (mem_range.1 hc), mul_zero])] at e
    simpa using e
  unfold curvatureDir at hd
  cases b with
  | true =>
    rw [if_pos rfl] at hd
    have hD := determineStepDirection_spec hf hO.iterRef hO.refSteps ⟨fun _ => 0, updA (fun _ => 0) k (if s.bounds.getStatus k = ST_LOWER then 1 else -1),
      updA (fun _ => 0) k (if s.bounds.getStatus k = ST_LOWER then 1 else -1), fun _ => 0, fun _ => 0⟩ false false hd
    refine ⟨hflat _ rfl _ _ hD, fun i hi => ?_, fun i hi => ?_⟩
    · have hk := WS.idxOf_fx_lt hi
      have e := dirX_fx hf.shape.okB d hk
      have e' := hD.bounds _ hk
      unfold dirFX at e'
      rw [show s.fx (s.bounds.fixed.idxOf i) = i from WS.fx_idxOf hi] at e e'
      rw [e, e', if_neg (by decide), ite_self]
      dsimp only
      by_cases hik : i = k
      · subst hik; rw [updA_same]; simp
      · rw [updA_ne _ _ hik]; simp [hik]
    · have hk := WS.idxOf_fx_lt hi
      have e' := hD.cons _ hk
      unfold shiftAC at e'
      rw [show s.ac (s.cons.fixed.idxOf i) = i from WS.fx_idxOf hi, if_neg (by decide), ite_self] at e'
      rw [e']; simp
  | false =>
    rw [if_neg (by decide)] at hd
    have hD := determineStepDirection_spec hf hO.iterRef hO.refSteps ⟨fun _ => 0, fun _ => 0, fun _ => 0, updA (fun _ => 0) k (if s.cons.getStatus k = ST_LOWER then 1 else -1),
      updA (fun _ => 0) k (if s.cons.getStatus k = ST_LOWER then 1 else -1)⟩ false true hd
    refine ⟨hflat _ rfl _ _ hD, fun i hi => ?_, fun i hi => ?_⟩
    · have hk := WS.idxOf_fx_lt hi
      have e := dirX_fx hf.shape.okB d hk
      have e' := hD.bounds _ hk
      unfold dirFX at e'
      rw [show s.fx (s.bounds.fixed.idxOf i) = i from WS.fx_idxOf hi] at e e'
      rw [e, e', if_pos rfl]; simp
    · have hk := WS.idxOf_fx_lt hi
      have e' := hD.cons _ hk
      unfold shiftAC at e'
      rw [show s.ac (s.cons.fixed.idxOf i) = i from WS.fx_idxOf hi, if_neg (by decide), ite_self] at e'
      rw [e']
      dsimp only
      by_cases hik : i = k
      · subst hik; rw [updA_same]; simp
      · rw [updA_ne _ _ hik]; simp [hik]

theorem jump_x {s : QPC K} (hs : s.Shape) (d : Dir K) (t : K) : ∀ i < s.nV, (s.jump d t).x i = s.x i + t * s.dirX d i := by
  intro i hi
  have hwB := hs.okB
  show addAt t d.xFX s.bounds.fixed (addAt t d.xFR s.bounds.free s.x) i = s.x i + t * s.dirX d i
  rw [addAt_apply _ _ _ _ hwB.nodup_fixed, addAt_apply _ _ _ _ hwB.nodup_free]
  unfold dirX
  rw [← hs.nB] at hi
  rcases hwB.mem_iff.1 hi with h | h
  · rw [if_neg (fun h' => hwB.disjoint h h'), if_pos h, if_pos (List.contains_iff_mem.2 h)]
  · rw [if_pos h, if_neg (fun h' => hwB.disjoint h' h), if_neg (fun h' => hwB.disjoint (List.contains_iff_mem.1 h') h),
      if_pos (List.contains_iff_mem.2 h)]

theorem jump_ax (s : QPC K) (d : Dir K) (t : K) : (s.jump d t).AxOK := by
  intro i hi _
  have hi : i < s.nC := hi
  refine ⟨?_, ?_, ?_⟩
  · show (if i < s.nC then s.prodA _ i else _) = _
    rw [if_pos hi]; rfl
  · show (if i < s.nC then (if i < s.nC then s.prodA _ i else _) - s.lbA i else _) = _
    rw [if_pos hi, if_pos hi]; rfl
  · show (if i < s.nC then s.ubA i - (if i < s.nC then s.prodA _ i else _) else _) = _
    rw [if_pos hi, if_pos hi]; rfl

theorem jump_facs {s : QPC K} (h : s.Facs) (d : Dir K) (t : K) : (s.jump d t).Facs :=
  ⟨⟨h.shape.okB, h.shape.okC, h.shape.nB, h.shape.nC, h.shape.size⟩, ⟨h.tq.le, h.tq.tq⟩, h.chol, h.sym⟩

theorem jump_same (s : QPC K) (d : Dir K) (t : K) : Same (s.jump d t) s :=
  ⟨rfl, rfl, rfl, rfl, rfl, rfl, rfl, rfl, rfl, rfl, rfl, rfl, rfl, rfl, rfl⟩

theorem jump_stat {s : QPC K} (h : s.Good) {b : Bool} {k : Nat} {d : Dir K} (hd : NullDir s b k d) (t : K) :
    ∀ i < s.nV, ∑ j ∈ range s.nV, s.Heff i j * (s.jump d t).x j + s.g i = s.y i + ∑ k ∈ range s.nC, s.A k i * s.y (s.nV + k) := by
  intro i hi
  rw [← h.opt.stat i hi]
  have e : ∑ j ∈ range s.nV, s.Heff i j * (s.jump d t).x j =
      ∑ j ∈ range s.nV, s.Heff i j * s.x j + t * ∑ j ∈ range s.nV, s.Heff i j * s.dirX d j := by
    rw [mul_sum, ← sum_add_distrib]
    refine sum_congr rfl fun j hj => ?_
    rw [jump_x h.facs.shape d t j (mem_range.1 hj)]; ring
  rw [e, hd.flat i hi, mul_zero, add_zero]

theorem jump_prodA {s : QPC K} (hs : s.Shape) (d : Dir K) (t : K) (i : Nat) :
    s.prodA (s.jump d t).x i = s.prodA s.x i + t * s.dirAx d i := prodA_add s (jump_x hs d t) i

theorem mul_le_cases {t a c : K} (ht : 0 ≤ t) (hc : 0 ≤ c) (h : 0 < a → t * a ≤ c) : t * a ≤ c := by
  rcases lt_or_ge 0 a with h0 | h0
  · exact h h0
  · exact (mul_nonpos_of_nonneg_of_nonpos ht h0).trans hc

/-- The free variables stay within their bounds. -/
theorem jump_free {s : QPC K} (h : s.Good) {b : Bool} {k : Nat} {d : Dir K} {t : K} (ht : 0 ≤ t) (hj : JumpOK s b k d t) :
    ∀ i ∈ s.bounds.free, (s.bounds.noLower = false → s.lb i ≤ (s.jump d t).x i) ∧ (s.bounds.noUpper = false → (s.jump d t).x i ≤ s.ub i) := by
  intro i hi
  have hs := h.facs.shape
  have hlt : i < s.nV := by rw [← hs.nB]; exact hs.okB.lt_free hi
  have e : s.fr (s.bounds.free.idxOf i) = i := WS.fr_idxOf hi
  have e' := dirX_fr hs.okB d (WS.idxOf_fr_lt hi)
  rw [e] at e'
  have hb := ((h.opt.bounds.inactive i hlt (hs.okB.free i hi)).2 trivial)
  rw [jump_x hs d t i hlt, e']
  refine ⟨fun hl => ?_, fun hu => ?_⟩
  · have := mul_le_cases ht (sub_nonneg.2 (hb.1 hl)) (a := -d.xFR (s.bounds.free.idxOf i)) (fun h0 => by
      have := hj.loB _ (WS.idxOf_fr_lt hi) h0
      rwa [e] at this)
    linarith
  · have := mul_le_cases ht (sub_nonneg.2 (hb.2 hu)) (a := d.xFR (s.bounds.free.idxOf i)) (fun h0 => by
      have := hj.upB _ (WS.idxOf_fr_lt hi) h0
      rwa [e] at this)
    linarith

/-- The inactive constraints stay within their limits. -/
theorem jump_inactive {s : QPC K} (h : s.Good) {b : Bool} {k : Nat} {d : Dir K} {t : K} (ht : 0 ≤ t) (hj : JumpOK s b k d t) :
    ∀ i ∈ s.cons.free, s.cons.type i ≠ ST_UNBOUNDED → (s.cons.noLower = false → s.lbA i ≤ s.prodA (s.jump d t).x i) ∧
      (s.cons.noUpper = false → s.prodA (s.jump d t).x i ≤ s.ubA i) := by
  intro i hi hty
  have hs := h.facs.shape
  have hlt : i < s.nC := by rw [← hs.nC]; exact hs.okC.lt_free hi
  have e : s.iac (s.cons.free.idxOf i) = i := WS.fr_idxOf hi
  have hb := ((h.opt.cons.inactive i hlt (hs.okC.free i hi)).2 hty)
  obtain ⟨_, a2, a3⟩ := h.ax i hlt hty
  rw [jump_prodA hs d t i]
  refine ⟨fun hl => ?_, fun hu => ?_⟩
  · have := mul_le_cases ht (sub_nonneg.2 (hb.1 hl)) (a := -s.dirAx d i) (fun h0 => by
      have := hj.loC _ (WS.idxOf_fr_lt hi) (by rw [e]; exact h0)
      rw [e, a2] at this; exact this)
    linarith
  · have := mul_le_cases ht (sub_nonneg.2 (hb.2 hu)) (a := s.dirAx d i) (fun h0 => by
      have := hj.upC _ (WS.idxOf_fr_lt hi) (by rw [e]; exact h0)
      rw [e, a3] at this; exact this)
    linarith

/-- The state after the jump, without the leaving bound, is optimal. -/
theorem jump_optB {s : QPC K} (h : s.Good) {k : Nat} (hk : k ∈ s.bounds.fixed) (hty : s.bounds.type k ≠ ST_EQUALITY) (hy : s.y k = 0)
    {d : Dir K} (hd : NullDir s true k d) {t : K} (ht : 0 ≤ t) (hj : JumpOK s true k d t) :
    SideOK (s.bounds.moveFixedToFree k) (fun _ => True) (s.jump d t).x s.lb s.ub s.y s.nV ∧
    SideOK s.cons (fun i => s.cons.type i ≠ ST_UNBOUNDED) (s.prodA (s.jump d t).x) s.lbA s.ubA (fun k => s.y (s.nV + k)) s.nC := by
  have hs := h.facs.shape
  have hkn : k < s.nV := by rw [← hs.nB]; exact hs.okB.lt_fixed hk
  have hxk := hd.bounds k hk
  rw [if_pos ⟨rfl, rfl⟩, getStatus_fixed hs.okB hk] at hxk
  constructor
  · refine (h.opt.bounds.remove hs.okB hs.nB hk hty hy (fun _ _ _ => rfl)).move (fun i hi hst => ?_) (fun i hi hst _ => ?_)
    · have hik : i ≠ k := by
        rintro rfl
        exact hst (updA_same _ _ _)
      have hst' : s.bounds.status i ≠ ST_INACTIVE := by
        rwa [show (s.bounds.moveFixedToFree k).status i = s.bounds.status i from updA_ne _ _ hik] at hst
      have hm : i ∈ s.bounds.fixed := by
        rcases hs.okB.mem_iff.1 (show i < s.bounds.n by rw [hs.nB]; exact hi) with hf | hf
        · exact absurd (hs.okB.free i hf) hst'
        · exact hf
      rw [jump_x hs d t i hi, hd.bounds i hm, if_neg (fun hh => hik hh.2), mul_zero, add_zero]
    · by_cases hik : i = k
      · subst hik
        rw [jump_x hs d t i hi, hxk]
        rcases hs.okB.fixed i hk with hst' | hst'
        · have g1 := (h.opt.bounds.lower i hi hst').1
          have g2 := hj.ownUB rfl (by rw [getStatus_fixed hs.okB hk]; exact hst')
          rw [if_pos hst']
          exact ⟨fun _ => by linarith, fun _ => by linarith⟩
        · have g1 := (h.opt.bounds.upper i hi hst').1
          have g2 := hj.ownLB rfl (by rw [getStatus_fixed hs.okB hk]; exact hst')
          rw [if_neg (by rw [hst']; decide)]
          exact ⟨fun _ => by linarith, fun _ => by linarith⟩
      · have hst' : s.bounds.status i = ST_INACTIVE := by
          rwa [show (s.bounds.moveFixedToFree k).status i = s.bounds.status i from updA_ne _ _ hik] at hst
        exact jump_free h ht hj i (hs.okB.mem_free_iff.2 ⟨by rw [hs.nB]; exact hi, hst'⟩)
  · refine h.opt.cons.move (fun i hi hst => ?_) (fun i hi hst hub => ?_)
    · have hm : i ∈ s.cons.fixed := by
        rcases hs.okC.mem_iff.1 (show i < s.cons.n by rw [hs.nC]; exact hi) with hf | hf
        · exact absurd (hs.okC.free i hf) hst
        · exact hf
      rw [jump_prodA hs d t i, hd.cons i hm, if_neg (fun hh => by cases hh.1), mul_zero, add_zero]
    · exact jump_inactive h ht hj i (hs.okC.mem_free_iff.2 ⟨by rw [hs.nC]; exact hi, hst⟩) hub

/-- The state after the jump, without the leaving constraint, is optimal. -/
theorem jump_optC {s : QPC K} (h : s.Good) {k : Nat} (hk : k ∈ s.cons.fixed) (hty : s.cons.type k ≠ ST_EQUALITY) (hy : s.y (s.nV + k) = 0)
    {d : Dir K} (hd : NullDir s false k d) {t : K} (ht : 0 ≤ t) (hj : JumpOK s false k d t) :
    SideOK s.bounds (fun _ => True) (s.jump d t).x s.lb s.ub s.y s.nV ∧
    SideOK (s.cons.moveFixedToFree k) (fun i => s.cons.type i ≠ ST_UNBOUNDED) (s.prodA (s.jump d t).x) s.lbA s.ubA
      (fun k => s.y (s.nV + k)) s.nC := by
  have hs := h.facs.shape
  have hkn : k < s.nC := by rw [← hs.nC]; exact hs.okC.lt_fixed hk
  have hxk := hd.cons k hk
  rw [if_pos ⟨rfl, rfl⟩, getStatus_fixed hs.okC hk] at hxk
  constructor
  · refine h.opt.bounds.move (fun i hi hst => ?_) (fun i hi hst _ => ?_)
    · have hm : i ∈ s.bounds.fixed := by
        rcases hs.okB.mem_iff.1 (show i < s.bounds.n by rw [hs.nB]; exact hi) with hf | hf
        · exact absurd (hs.okB.free i hf) hst
        · exact hf
      rw [jump_x hs d t i hi, hd.bounds i hm, if_neg (fun hh => by cases hh.1), mul_zero, add_zero]
    · exact jump_free h ht hj i (hs.okB.mem_free_iff.2 ⟨by rw [hs.nB]; exact hi, hst⟩)
  · refine (h.opt.cons.remove hs.okC hs.nC hk hty hy (fun _ _ _ => rfl)).move (fun i hi hst => ?_) (fun i hi hst hub => ?_)
    · have hik : i ≠ k := by
        rintro rfl
        exact hst (updA_same _ _ _)
      have hst' : s.cons.status i ≠ ST_INACTIVE := by
        rwa [show (s.cons.moveFixedToFree k).status i = s.cons.status i from updA_ne _ _ hik] at hst
      have hm : i ∈ s.cons.fixed := by
        rcases hs.okC.mem_iff.1 (show i < s.cons.n by rw [hs.nC]; exact hi) with hf | hf
        · exact absurd (hs.okC.free i hf) hst'
        · exact hf
      rw [jump_prodA hs d t i, hd.cons i hm, if_neg (fun hh => hik hh.2), mul_zero, add_zero]
    · by_cases hik : i = k
      · subst hik
        obtain ⟨_, a2, a3⟩ := h.ax i hi hub
        rw [jump_prodA hs d t i, hxk]
        rcases hs.okC.fixed i hk with hst' | hst'
        · have g1 := (h.opt.cons.lower i hi hst').1
          have g2 := hj.ownUC rfl (by rw [getStatus_fixed hs.okC hk]; exact hst')
          rw [if_pos hst']
          exact ⟨fun _ => by linarith, fun _ => by linarith⟩
        · have g1 := (h.opt.cons.upper i hi hst').1
          have g2 := hj.ownLC rfl (by rw [getStatus_fixed hs.okC hk]; exact hst')
          rw [if_neg (by rw [hst']; decide)]
          exact ⟨fun _ => by linarith, fun _ => by linarith⟩
      · have hst' : s.cons.status i = ST_INACTIVE := by
          rwa [show (s.cons.moveFixedToFree k).status i = s.cons.status i from updA_ne _ _ hik] at hst
        exact jump_inactive h ht hj i (hs.okC.mem_free_iff.2 ⟨by rw [hs.nC]; exact hi, hst'⟩) hub

theorem mem_freed {w : WS} {k i : Nat} : i ∈ (w.moveFixedToFree k).free ↔ i ∈ w.free ∨ i = k := by
  show i ∈ w.free ++ [k] ↔ _
  rw [List.mem_append, List.mem_singleton]

theorem type_free {w : WS} (hw : w.OK) {obs : Nat → Prop} {v l u y : Nat → K} {n : Nat} (hn : w.n = n) (h : SideOK w obs v l u y n) {i : Nat}
    (hi : i ∈ w.free) : w.type i ≠ ST_EQUALITY := by
  intro he
  exact (h.eq i (by rw [← hn]; exact hw.lt_free hi) he).1 (hw.free i hi)

/-- The jump ends at the limit of the member found. -/
theorem jump_hitB {s s2 : QPC K} (h : s.Good) {k : Nat} (hk : k ∈ s.bounds.fixed) (hty : s.bounds.type k ≠ ST_EQUALITY)
    {d : Dir K} (hd : NullDir s true k d) {t : K} {c : Change} (hc : JumpHit s true k d t c) (hl : HasLimit s (some c))
    (e1 : s2.bounds = s.bounds.moveFixedToFree k) (e2 : s2.cons = s.cons) (e3 : s2.x = (s.jump d t).x) (e4 : s2.lb = s.lb) (e5 : s2.ub = s.ub)
    (e6 : s2.lbA = s.lbA) (e7 : s2.ubA = s.ubA) (e8 : s2.prodA = s.prodA) : AtLimit s2 (some c) := by
  have hs := h.facs.shape
  have hkn : k < s.nV := by rw [← hs.nB]; exact hs.okB.lt_fixed hk
  have hxk := hd.bounds k hk
  rw [if_pos ⟨rfl, rfl⟩] at hxk
  obtain ⟨isB, i, st⟩ := c
  have hfrB : ∀ j < s.nFR, i = s.fr j → i ∈ s.bounds.free ∧ i < s.nV ∧ d.xFR j = s.dirX d i := by
    intro j hj e
    have hm : i ∈ s.bounds.free := by rw [e]; exact WS.fr_mem hj
    exact ⟨hm, by rw [← hs.nB]; exact hs.okB.lt_free hm, by rw [e, dirX_fr hs.okB d hj]⟩
  have hfrC : ∀ j < s.nIAC, i = s.iac j → i ∈ s.cons.free ∧ i < s.nC := by
    intro j hj e
    have hm : i ∈ s.cons.free := by rw [e]; exact WS.fr_mem hj
    exact ⟨hm, by rw [← hs.nC]; exact hs.okC.lt_free hm⟩
  have hinB : i ∈ s.bounds.free ∨ i = k → i ∈ s2.bounds.free ∧ s2.bounds.type i ≠ ST_EQUALITY := by
    intro hi
    rw [e1]
    refine ⟨mem_freed.2 hi, ?_⟩
    rcases hi with hi | rfl
    · exact type_free hs.okB hs.nB h.opt.bounds hi
    · exact hty
  have hinC : i ∈ s.cons.free → i ∈ s2.cons.free ∧ s2.cons.type i ≠ ST_EQUALITY := by
    intro hi
    rw [e2]
    exact ⟨hi, type_free hs.okC hs.nC h.opt.cons hi⟩
  cases isB <;> cases st <;> first | exact absurd hc id | skip
  · obtain ⟨j, hj, e, g⟩ | ⟨⟨hb, _⟩, _⟩ := hc
    · obtain ⟨m1, m2⟩ := hfrC j hj e
      refine ⟨(hinC m1).1, (hinC m1).2, ?_⟩
      rw [e3, e6, e8, jump_prodA hs d t i]
      rw [(h.ax i m2 hl).2.1] at g
      linarith
    · cases hb
  · obtain ⟨j, hj, e, g⟩ | ⟨⟨hb, _⟩, _⟩ := hc
    · obtain ⟨m1, m2⟩ := hfrC j hj e
      refine ⟨(hinC m1).1, (hinC m1).2, ?_⟩
      rw [e3, e7, e8, jump_prodA hs d t i]
      rw [(h.ax i m2 hl).2.2] at g
      linarith
    · cases hb
  · obtain ⟨j, hj, e, g⟩ | ⟨⟨_, hb⟩, e, g⟩ := hc
    · obtain ⟨m1, m2, m3⟩ := hfrB j hj e
      refine ⟨(hinB (Or.inl m1)).1, (hinB (Or.inl m1)).2, ?_⟩
      rw [e3, e4, jump_x hs d t i m2]
      rw [m3] at g
      linarith
    · refine ⟨(hinB (Or.inr e)).1, (hinB (Or.inr e)).2, ?_⟩
      rw [if_neg (by rw [hb]; decide)] at hxk
      rw [e3, e4, e, jump_x hs d t k hkn, hxk]
      linarith
  · obtain ⟨j, hj, e, g⟩ | ⟨⟨_, hb⟩, e, g⟩ := hc
    · obtain ⟨m1, m2, m3⟩ := hfrB j hj e
      refine ⟨(hinB (Or.inl m1)).1, (hinB (Or.inl m1)).2, ?_⟩
      rw [e3, e5, jump_x hs d t i m2]
      rw [m3] at g
      linarith
    · refine ⟨(hinB (Or.inr e)).1, (hinB (Or.inr e)).2, ?_⟩
      rw [if_pos hb] at hxk
      rw [e3, e5, e, jump_x hs d t k hkn, hxk]
      linarith

theorem jump_hitC {s s2 : QPC K} (h : s.Good) {k : Nat} (hk : k ∈ s.cons.fixed) (hty : s.cons.type k ≠ ST_EQUALITY)
    {d : Dir K} (hd : NullDir s false k d) {t : K} {c : Change} (hc : JumpHit s false k d t c) (hl : HasLimit s (some c))
    (e1 : s2.bounds = s.bounds) (e2 : s2.cons = s.cons.moveFixedToFree k) (e3 : s2.x = (s.jump d t).x) (e4 : s2.lb = s.lb) (e5 : s2.ub = s.ub)
    (e6 : s2.lbA = s.lbA) (e7 : s2.ubA = s.ubA) (e8 : s2.prodA = s.prodA) : AtLimit s2 (some c) := by
  have hs := h.facs.shape
  have hkn : k < s.nC := by rw [← hs.nC]; exact hs.okC.lt_fixed hk
  have hxk := hd.cons k hk
  rw [if_pos ⟨rfl, rfl⟩] at hxk
  obtain ⟨isB, i, st⟩ := c
  have hfrB : ∀ j < s.nFR, i = s.fr j → i ∈ s.bounds.free ∧ i < s.nV ∧ d.xFR j = s.dirX d i := by
    intro j hj e
    have hm : i ∈ s.bounds.free := by rw [e]; exact WS.fr_mem hj
    exact ⟨hm, by rw [← hs.nB]; exact hs.okB.lt_free hm, by rw [e, dirX_fr hs.okB d hj]⟩
  have hfrC : ∀ j < s.nIAC, i = s.iac j → i ∈ s.cons.free ∧ i < s.nC := by
    intro j hj e
    have hm : i ∈ s.cons.free := by rw [e]; exact WS.fr_mem hj
    exact ⟨hm, by rw [← hs.nC]; exact hs.okC.lt_free hm⟩
  have hinC : i ∈ s.cons.free ∨ i = k → i ∈ s2.cons.free ∧ s2.cons.type i ≠ ST_EQUALITY := by
    intro hi
    rw [e2]
    refine ⟨mem_freed.2 hi, ?_⟩
    rcases hi with hi | rfl
    · exact type_free hs.okC hs.nC h.opt.cons hi
    · exact hty
  have hinB : i ∈ s.bounds.free → i ∈ s2.bounds.free ∧ s2.bounds.type i ≠ ST_EQUALITY := by
    intro hi
    rw [e1]
    exact ⟨hi, type_free hs.okB hs.nB h.opt.bounds hi⟩
  cases isB <;> cases st <;> first | exact absurd hc id | skip
  · obtain ⟨j, hj, e, g⟩ | ⟨⟨_, hb⟩, e, g⟩ := hc
    · obtain ⟨m1, m2⟩ := hfrC j hj e
      refine ⟨(hinC (Or.inl m1)).1, (hinC (Or.inl m1)).2, ?_⟩
      rw [e3, e6, e8, jump_prodA hs d t i]
      rw [(h.ax i m2 hl).2.1] at g
      linarith
    · refine ⟨(hinC (Or.inr e)).1, (hinC (Or.inr e)).2, ?_⟩
      subst e
      rw [if_neg (by rw [hb]; decide)] at hxk
      rw [e3, e6, e8, jump_prodA hs d t i, hxk]
      rw [(h.ax i hkn hl).2.1] at g
      linarith
  · obtain ⟨j, hj, e, g⟩ | ⟨⟨_, hb⟩, e, g⟩ := hc
    · obtain ⟨m1, m2⟩ := hfrC j hj e
      refine ⟨(hinC (Or.inl m1)).1, (hinC (Or.inl m1)).2, ?_⟩
      rw [e3, e7, e8, jump_prodA hs d t i]
      rw [(h.ax i m2 hl).2.2] at g
      linarith
    · refine ⟨(hinC (Or.inr e)).1, (hinC (Or.inr e)).2, ?_⟩
      subst e
      rw [if_pos hb] at hxk
      rw [e3, e7, e8, jump_prodA hs d t i, hxk]
      rw [(h.ax i hkn hl).2.2] at g
      linarith
  · obtain ⟨j, hj, e, g⟩ | ⟨⟨hb, _⟩, _⟩ := hc
    · obtain ⟨m1, m2, m3⟩ := hfrB j hj e
      refine ⟨(hinB m1).1, (hinB m1).2, ?_⟩
      rw [e3, e4, jump_x hs d t i m2]
      rw [m3] at g
      linarith
    · cases hb
  · obtain ⟨j, hj, e, g⟩ | ⟨⟨hb, _⟩, _⟩ := hc
    · obtain ⟨m1, m2, m3⟩ := hfrB j hj e
      refine ⟨(hinB m1).1, (hinB m1).2, ?_⟩
      rw [e3, e5, jump_x hs d t i m2]
      rw [m3] at g
      linarith
    · cases hb

/-! ### the exchange -/

/-- Rotations and roots are exact when the member found enters. -/
def CleanEnter (sq : K → K) (s : QPC K) (c : Change) : Prop :=
  if c.isBound then s.CleanAddB sq c.idx true else s.CleanAddC sq c.idx true

theorem exchange_spec {sq : K → K} {s s' : QPC K} (h : s.Good) (hz : 0 < s.nZ) {c : Change} (hl : AtLimit s (some c))
    (hst : c.st = ST_LOWER ∨ c.st = ST_UPPER) (hc : CleanEnter sq s c) (heq : exchange sq s c = .ok s') :
    s'.Good ∧ Same s' s ∧ s'.y = s.y := by
  have hs := h.facs.shape
  obtain ⟨isB, i, st⟩ := c
  dsimp only at hst
  have key : ∃ r, (if isB = true then addBoundPlain sq s i st true else addConstraintPlain sq s i st true) = .ok (r, s') := by
    unfold exchange at heq
    cases isB with
    | true =>
      dsimp only at heq
      rw [if_pos rfl, Res.bind_eq_ok] at heq
      obtain ⟨⟨r, s1⟩, e1, e2⟩ := heq
      simp only [Res.ok.injEq] at e2
      subst e2
      exact ⟨r, by rw [if_pos rfl]; exact e1⟩
    | false =>
      dsimp only at heq
      rw [if_neg (by decide), Res.bind_eq_ok] at heq
      obtain ⟨⟨r, s1⟩, e1, e2⟩ := heq
      simp only [Res.ok.injEq] at e2
      subst e2
      exact ⟨r, by rw [if_neg (by decide)]; exact e1⟩
  obtain ⟨r, e1⟩ := key
  cases isB with
  | true =>
    have hc' : s.CleanAddB sq i true := hc
    have hl' : i ∈ s.bounds.free ∧ s.bounds.type i ≠ ST_EQUALITY ∧ (st = ST_LOWER → s.x i = s.lb i) ∧ (st = ST_UPPER → s.x i = s.ub i) := by
      rcases hst with rfl | rfl
      · exact ⟨hl.1, hl.2.1, fun _ => hl.2.2, fun e => by cases e⟩
      · exact ⟨hl.1, hl.2.1, fun e => (by cases e), fun _ => hl.2.2⟩
    obtain ⟨m, ty, lo, up⟩ := hl'
    have hlt : i < s.nV := by rw [← hs.nB]; exact hs.okB.lt_free m
    have hy : s.y i = 0 := (h.opt.bounds.inactive i hlt (hs.okB.free i m)).1
    rw [if_pos rfl] at e1
    unfold addBoundPlain at e1
    split at e1
    · simp only [Res.ok.injEq, Prod.mk.injEq] at e1
      rw [← e1.2]
      exact ⟨h, Same.refl _, rfl⟩
    · obtain ⟨s2, f1, f2, f3⟩ := (h.ready hz hy).addB (sq := sq) m ty hst (fun e => ⟨lo e, hy.ge⟩) (fun e => ⟨up e, hy.le⟩) hc'
      obtain ⟨T, Q, R, f4, _⟩ := addBoundUpdate_spec hs h.facs.tq h.facs.sym m hst hz (fun _ => h.facs.chol) hc'
      rw [f1] at e1
      rw [f1] at f4
      simp only [Res.ok.injEq, Prod.mk.injEq, true_and] at e1 f4
      rw [← e1.2]
      exact ⟨f2, f3, by rw [f4]⟩
  | false =>
    have hc' : s.CleanAddC sq i true := hc
    have hl' : i ∈ s.cons.free ∧ s.cons.type i ≠ ST_EQUALITY ∧ (st = ST_LOWER → s.prodA s.x i = s.lbA i) ∧
        (st = ST_UPPER → s.prodA s.x i = s.ubA i) := by
      rcases hst with rfl | rfl
      · exact ⟨hl.1, hl.2.1, fun _ => hl.2.2, fun e => by cases e⟩
      · exact ⟨hl.1, hl.2.1, fun e => (by cases e), fun _ => hl.2.2⟩
    obtain ⟨m, ty, lo, up⟩ := hl'
    have hlt : i < s.nC := by rw [← hs.nC]; exact hs.okC.lt_free m
    have hy : s.y (s.nV + i) = 0 := (h.opt.cons.inactive i hlt (hs.okC.free i m)).1
    rw [if_neg (by decide)] at e1
    unfold addConstraintPlain at e1
    split at e1
    · simp only [Res.ok.injEq, Prod.mk.injEq] at e1
      rw [← e1.2]
      exact ⟨h, Same.refl _, rfl⟩
    · obtain ⟨s2, f1, f2, f3⟩ := (h.ready hz hy).addC (sq := sq) m ty hst (fun e => ⟨lo e, hy.ge⟩) (fun e => ⟨up e, hy.le⟩) hc'
      obtain ⟨T, Q, R, f4, _⟩ := addConstraintUpdate_spec hs h.facs.tq h.facs.sym m hst hz (fun _ => h.facs.chol) hc'
      rw [f1] at e1
      rw [f1] at f4
      simp only [Res.ok.injEq, Prod.mk.injEq, true_and] at e1 f4
      rw [← e1.2]
      exact ⟨f2, f3, by rw [f4]⟩

theorem AtLimit.status {s : QPC K} {b : Bool} {k : Nat} {d : Dir K} {t : K} {c : Change} (h : JumpHit s b k d t c) :
    c.st = ST_LOWER ∨ c.st = ST_UPPER := by
  obtain ⟨isB, i, st⟩ := c
  cases isB <;> cases st <;> first | exact absurd h id | exact Or.inl rfl | exact Or.inr rfl

/-- The working set between the two halves of an exchange, when bound `k` has left; `v` is the new column of `R`. -/
def leftB (sq : K → K) (s : QPC K) (k : Nat) (v : Nat → K) : QPC K := { s with
  T := (s.freed sq k).1
  Q := (s.freed sq k).2.2
  R := fun i j => if i = s.nZ ∧ j = s.nZ then 0 else if i < s.nZ ∧ j = s.nZ then v i else s.R i j
  bounds := s.bounds.moveFixedToFree k }

/-- The exchange is exact: the projected Hessian has become singular, and the rotations and roots are exact. -/
def CleanSwapB (sq : K → K) (s : QPC K) (k : Nat) (c : Change) : Prop :=
  s.CleanRemB sq k ∧ (s.general = true → ∀ v rho2, newColumnB
    { s with T := (s.freed sq k).1, Q := (s.freed sq k).2.2, bounds := s.bounds.moveFixedToFree k }
      s.nFR s.nZ k = .ok (some (v, rho2)) → rho2 = 0 ∧ CleanEnter sq (leftB sq s k v) c)

theorem removeBoundUpdate_swap {sq : K → K} {s s' : QPC K} (h : s.Facs) (ha : s.AxOK) {k : Nat} (hk : k ∈ s.bounds.fixed) {c : Change}
    (hc : CleanSwapB sq s k c) (hst : c.st = ST_LOWER ∨ c.st = ST_UPPER)
    (ho : ∀ T Q R, Opt { s with T := T, Q := Q, R := R, bounds := s.bounds.moveFixedToFree k })
    (hl : ∀ T Q R, AtLimit { s with T := T, Q := Q, R := R, bounds := s.bounds.moveFixedToFree k } (some c))
    (heq : removeBoundUpdate sq s k true true (some c) = .ok (SUCCESSFUL_RETURN, s')) : s'.Good ∧ Same s' s ∧ s'.y = s.y := by
  obtain ⟨hc1, hc2⟩ := hc
  have hsame : ∀ T Q R, Same ({ s with T := T, Q := Q, R := R, bounds := s.bounds.moveFixedToFree k } : QPC K) s :=
    fun _ _ _ => ⟨rfl, rfl, rfl, rfl, rfl, rfl, rfl, rfl, rfl, rfl, rfl, rfl, rfl, rfl, rfl⟩
  unfold removeBoundUpdate at heq
  dsimp only at heq
  rw [if_neg (show ¬ (s.options.enableFlippingBounds = true ∧ true = true ∧ (some c).isNone = true) from fun hh => by cases hh.2.2)] at heq
  have e2 : loop (removeBoundStep sq ({ s with bounds := s.bounds.moveFixedToFree k } : QPC K).isFree
      s.nAC s.nZ (s.sizeT - s.nAC)) s.nAC
      (s.T, fun i => s.A (({ s with bounds := s.bounds.moveFixedToFree k } : QPC K).ac i) k,
        fun i j => if i = k then (if j = s.nFR then 1 else if j < s.nFR then 0 else s.Q i j)
          else if s.isFree i = true ∧ j = s.nFR then 0 else s.Q i j) = s.freed sq k := rfl
  rw [e2] at heq
  by_cases hg : s.general = true
  · rw [if_pos ⟨rfl, hg⟩] at heq
    rw [Res.bind_eq_ok] at heq
    obtain ⟨q, hq, heq⟩ := heq
    have hq' : newColumnB
      { s with T := (s.freed sq k).1, Q := (s.freed sq k).2.2, bounds := s.bounds.moveFixedToFree k }
      s.nFR s.nZ k = .ok q := hq
    cases q with
    | none => simp only [Res.ok.injEq, Prod.mk.injEq] at heq; exact absurd heq.1 (by decide)
    | some q =>
      obtain ⟨v, rho2⟩ := q
      obtain ⟨h0, hen⟩ := hc2 hg v rho2 hq'
      have hnd : ∀ s1 : QPC K, newDiag sq s1 s.nZ rho2 true (some c).isSome = some (SUCCESSFUL_RETURN, s1) := by
        intro s1
        unfold newDiag
        dsimp only
        rw [if_neg (fun hh => by cases hh.2.2), if_neg (show ¬ (some c).isSome = false by simp)]
      dsimp only at heq
      rw [hnd] at heq
      dsimp only at heq
      rw [if_neg (by simp)] at heq
      rw [Res.bind_eq_ok] at heq
      obtain ⟨s2, k1, k2⟩ := heq
      simp only [Res.ok.injEq, Prod.mk.injEq, true_and] at k2
      subst k2
      have k1' : exchange sq (leftB sq s k v) c = .ok s2 := k1
      obtain ⟨c1, c2⟩ := removeB_core h.shape h.tq hk hc1 s.flipC
        (fun i j => if i = s.nZ ∧ j = s.nZ then 0 else if i < s.nZ ∧ j = s.nZ then v i else s.R i j)
      have c3 := removeB_chol (d := 0) h.shape h.tq h.sym hk hc1 s.flipC h.chol hg hq' (by rw [h0, mul_zero])
      have hgood : (leftB sq s k v).Good := ⟨⟨c1, c2, c3, h.sym⟩, ho _ _ _, ha⟩
      have hnz : 0 < (leftB sq s k v).nZ := by
        have := h.tq.le
        show 0 < (s.bounds.moveFixedToFree k).nFR - s.nAC
        rw [QPB.nFR_moveFixedToFree]
        show 0 < s.nFR + 1 - s.nAC
        omega
      obtain ⟨f1, f2, f3⟩ := exchange_spec hgood hnz (hl _ _ _) hst hen k1'
      exact ⟨f1, f2.trans (hsame _ _ _), f3⟩
  · rw [if_neg (fun hh => hg hh.2)] at heq
    cases heq
    obtain ⟨c1, c2⟩ := removeB_core h.shape h.tq hk hc1 s.flipC s.R
    exact ⟨⟨⟨c1, c2, fun hh => absurd hh hg, h.sym⟩, ho _ _ _, ha⟩, hsame _ _ _, rfl⟩

/-- The working set between the two halves of an exchange, when constraint `k` has left; `v` is the new column of `R`. -/
def leftC (sq : K → K) (s : QPC K) (k : Nat) (v : Nat → K) : QPC K := { s with
  T := (removeRow sq s (s.cons.fixed.idxOf k)).1
  Q := (removeRow sq s (s.cons.fixed.idxOf k)).2
  R := fun i j => if i = s.nZ ∧ j = s.nZ then 0 else if i < s.nZ ∧ j = s.nZ then v i else s.R i j
  cons := s.cons.moveFixedToFree k }

/-- The same without a projected Hessian -/
def leftC' (sq : K → K) (s : QPC K) (k : Nat) : QPC K := { s with
  T := (removeRow sq s (s.cons.fixed.idxOf k)).1
  Q := (removeRow sq s (s.cons.fixed.idxOf k)).2
  R := fun i j => if i = s.nZ ∧ j = s.nZ then 0 else s.R i j
  cons := s.cons.moveFixedToFree k }

def CleanSwapC (sq : K → K) (s : QPC K) (k : Nat) (c : Change) : Prop :=
  s.CleanRemC sq k ∧ (s.general = true → ∀ v rho2, newColumnC { s with
      T := (removeRow sq s (s.cons.fixed.idxOf k)).1
      Q := (removeRow sq s (s.cons.fixed.idxOf k)).2 } = .ok (some (v, rho2)) → rho2 = 0 ∧ CleanEnter sq (leftC sq s k v) c) ∧
    (s.general = false → CleanEnter sq (leftC' sq s k) c)

theorem removeConstraintUpdate_swap {sq : K → K} {s s' : QPC K} (h : s.Facs) (ha : s.AxOK) {k : Nat} (hk : k ∈ s.cons.fixed) {c : Change}
    (hc : CleanSwapC sq s k c) (hst : c.st = ST_LOWER ∨ c.st = ST_UPPER)
    (ho : ∀ T Q R, Opt { s with T := T, Q := Q, R := R, cons := s.cons.moveFixedToFree k })
    (hl : ∀ T Q R, AtLimit { s with T := T, Q := Q, R := R, cons := s.cons.moveFixedToFree k } (some c))
    (heq : removeConstraintUpdate sq s k true true (some c) = .ok (SUCCESSFUL_RETURN, s')) : s'.Good ∧ Same s' s ∧ s'.y = s.y := by
  obtain ⟨hc1, hc2, hc3⟩ := hc
  have hsame : ∀ T Q R, Same ({ s with T := T, Q := Q, R := R, cons := s.cons.moveFixedToFree k } : QPC K) s :=
    fun _ _ _ => ⟨rfl, rfl, rfl, rfl, rfl, rfl, rfl, rfl, rfl, rfl, rfl, rfl, rfl, rfl, rfl⟩
  have hnz : 0 < s.nFR - (s.cons.moveFixedToFree k).nFX := by
    have h1 := h.tq.le
    have h2 : 0 < s.nAC := List.length_pos_of_mem hk
    rw [WS.nFX_moveFixedToFree hk]
    show 0 < s.nFR - (s.nAC - 1)
    omega
  unfold removeConstraintUpdate at heq
  dsimp only at heq
  rw [if_neg (show ¬ ((some c).isNone = true ∧ s.options.enableFlippingBounds = true ∧ true = true) from fun hh => by cases hh.1)] at heq
  by_cases hg : s.general = true
  · rw [if_pos ⟨rfl, hg⟩] at heq
    rw [Res.bind_eq_ok] at heq
    obtain ⟨q, hq, heq⟩ := heq
    have hq' : newColumnC { s with
      T := (removeRow sq s (s.cons.fixed.idxOf k)).1
      Q := (removeRow sq s (s.cons.fixed.idxOf k)).2 } = .ok q := hq
    cases q with
    | none => simp only [Res.ok.injEq, Prod.mk.injEq] at heq; exact absurd heq.1 (by decide)
    | some q =>
      obtain ⟨v, rho2⟩ := q
      obtain ⟨h0, hen⟩ := hc2 hg v rho2 hq'
      have hnd : ∀ s1 : QPC K, newDiag sq s1 s.nZ rho2 true (some c).isSome = some (SUCCESSFUL_RETURN, s1) := by
        intro s1
        unfold newDiag
        dsimp only
        rw [if_neg (fun hh => by cases hh.2.2), if_neg (show ¬ (some c).isSome = false by simp)]
      dsimp only at heq
      rw [hnd] at heq
      dsimp only at heq
      rw [if_neg (by simp)] at heq
      rw [Res.bind_eq_ok] at heq
      obtain ⟨s2, k1, k2⟩ := heq
      simp only [Res.ok.injEq, Prod.mk.injEq, true_and] at k2
      subst k2
      have k1' : exchange sq (leftC sq s k v) c = .ok s2 := k1
      obtain ⟨c1, c2⟩ := removeC_core h.shape h.tq hk hc1 s.flipC
        (fun i j => if i = s.nZ ∧ j = s.nZ then 0 else if i < s.nZ ∧ j = s.nZ then v i else s.R i j)
      have c3 := removeC_chol (d := 0) h.shape h.tq hk hc1 s.flipC h.chol hg hq' (by rw [h0, mul_zero])
      have hgood : (leftC sq s k v).Good := ⟨⟨c1, c2, c3, h.sym⟩, ho _ _ _, ha⟩
      obtain ⟨f1, f2, f3⟩ := exchange_spec hgood hnz (hl _ _ _) hst hen k1'
      exact ⟨f1, f2.trans (hsame _ _ _), f3⟩
  · rw [if_neg (fun hh => hg hh.2)] at heq
    rw [Res.bind_eq_ok] at heq
    obtain ⟨s2, k1, k2⟩ := heq
    simp only [Res.ok.injEq, Prod.mk.injEq, true_and] at k2
    subst k2
    have k1' : exchange sq (leftC' sq s k) c = .ok s2 := k1
    obtain ⟨c1, c2⟩ := removeC_core h.shape h.tq hk hc1 s.flipC (fun i j => if i = s.nZ ∧ j = s.nZ then 0 else s.R i j)
    have hgood : (leftC' sq s k).Good := ⟨⟨c1, c2, fun hh => absurd hh hg, h.sym⟩, ho _ _ _, ha⟩
    obtain ⟨f1, f2, f3⟩ := exchange_spec hgood hnz (hl _ _ _) hst (hc3 (by simpa using hg)) k1'
    exact ⟨f1, f2.trans (hsame _ _ _), f3⟩

/-- A member leaves along a direction without any curvature: the test notices this, the ratio tests notice every limit approached, and the
exchange with the member found is exact. -/
def NullClean (sq : K → K) (s : QPC K) (b : Bool) (k : Nat) : Prop :=
  ∀ d, s.curvatureDir b k = .ok (.ok d) → Dir.normY s d < s.options.epsNZCTests * Dir.normX s d ∧ Dir.normY s d = 0 ∧
    0 ≤ s.options.maxPrimalJump ∧ AllSeen s b k d ∧ ∀ t bc, s.curvatureTests b k d = .ok (t, bc) → HasLimit s bc ∧
      ∀ c, bc = some c → if b then CleanSwapB sq (s.jump d t) k c else CleanSwapC sq (s.jump d t) k c

/-- Removing a bound in `changeActiveSet` is exact: either nothing happens because there is curvature, or there is none at all. -/
def CleanLeaveB (sq : K → K) (s : QPC K) (k : Nat) : Prop := CleanOutB sq s k ∨ (s.options.enableNZCTests = true ∧ NullClean sq s true k)

def CleanLeaveC (sq : K → K) (s : QPC K) (k : Nat) : Prop := CleanOutC sq s k ∨ (s.options.enableNZCTests = true ∧ NullClean sq s false k)

/-- What the test for curvature does if there is none: a jump to the next limit. -/
theorem NullClean.jumps {sq : K → K} {s s' : QPC K} {b : Bool} {k : Nat} (h : NullClean sq s b k) (hf : s.Facs) (hO : OptionsOK s.options)
    {c : Option Change} (e : s.ensureNonzeroCurvature b k = .ok (SUCCESSFUL_RETURN, s', c)) :
    ∃ d t c', s' = s.jump d t ∧ c = some c' ∧ NullDir s b k d ∧ 0 ≤ t ∧ t < s.options.maxPrimalJump ∧ JumpOK s b k d t ∧
      JumpHit s b k d t c' ∧ HasLimit s (some c') ∧ (if b then CleanSwapB sq (s.jump d t) k c' else CleanSwapC sq (s.jump d t) k c') := by
  unfold ensureNonzeroCurvature at e
  dsimp only at e
  have e' : (do
      let e ← s.curvatureDir b k
      match e with
      | .error _ => Res.ub .uninitialised
      | .ok d =>
        if Dir.normY s d < s.options.epsNZCTests * Dir.normX s d then do
          let (sigma, c) ← s.curvatureTests b k d
          if sigma ≥ s.options.maxPrimalJump then .ok (RET_HOTSTART_STOPPED_UNBOUNDEDNESS, { s with unbounded := true }, none)
          else .ok (SUCCESSFUL_RETURN, s.jump d sigma, c)
        else .ok (SUCCESSFUL_RETURN, s, none)) = Res.ok (SUCCESSFUL_RETURN, s', c) := by
    rw [← e]
    unfold curvatureDir
    cases b <;> rfl
  rw [Res.bind_eq_ok] at e'
  obtain ⟨ed, e1, e'⟩ := e'
  cases ed with
  | error _ => cases e'
  | ok d =>
    obtain ⟨h1, h2, hJ, h3, h4⟩ := h d e1
    dsimp only at e'
    rw [if_pos h1] at e'
    obtain ⟨t, bc, g1, g2, g3, g4⟩ := curvatureTests_spec hf.shape hO.epsDen hJ h3
    obtain ⟨h5, h6⟩ := h4 t bc g1
    rw [g1, Res.bind_ok] at e'
    dsimp only at e'
    split at e'
    · simp only [Res.ok.injEq, Prod.mk.injEq] at e'
      exact absurd e'.1 (by decide)
    · next hlt =>
      have hlt := not_le.1 hlt
      simp only [Res.ok.injEq, Prod.mk.injEq, true_and] at e'
      obtain ⟨c', g5, g6⟩ := g4 hlt
      subst g5
      exact ⟨d, t, c', e'.1.symm, e'.2.symm, curvatureDir_null hf hO e1 h2, g2, hlt, g3, g6, h5, h6 c' rfl⟩

theorem removeBound_leave {sq : K → K} {s s' : QPC K} (h : s.Good) (hO : OptionsOK s.options) {k : Nat} (hk : k ∈ s.bounds.fixed)
    (hty : s.bounds.type k ≠ ST_EQUALITY) (hy : s.y k = 0) (hc : CleanLeaveB sq s k)
    (heq : removeBound sq s k true true s.options.enableNZCTests = .ok (SUCCESSFUL_RETURN, s')) : s'.Good ∧ Same s' s ∧ s'.y = s.y := by
  rcases hc with hc | ⟨hz, hc⟩
  · exact removeBound_out h hk hty hy hc heq
  · unfold removeBound at heq
    split at heq
    · simp only [Res.ok.injEq, Prod.mk.injEq] at heq; exact absurd heq.1 (by decide)
    split at heq
    · simp only [Res.ok.injEq, Prod.mk.injEq] at heq; exact absurd heq.1 (by decide)
    rw [Res.bind_eq_ok] at heq
    obtain ⟨⟨r, s1, c⟩, e1, heq⟩ := heq
    dsimp only at heq
    split at heq
    · next hr => simp only [Res.ok.injEq, Prod.mk.injEq] at heq; exact absurd heq.1 hr
    · next hr =>
      rw [not_not] at hr
      subst hr
      obtain ⟨d, t, c', rfl, rfl, g1, g2, g3, g4, g5, g6, g7⟩ := hc.jumps h.facs hO e1
      rw [if_pos rfl] at g7
      obtain ⟨o1, o2⟩ := jump_optB h hk hty hy g1 g2 g4
      obtain ⟨f1, f2, f3⟩ := removeBoundUpdate_swap (jump_facs h.facs d t) (jump_ax s d t) hk g7 (AtLimit.status g5)
        (fun T Q R => ⟨jump_stat h g1 t, o1, o2⟩)
        (fun T Q R => jump_hitB h hk hty g1 g5 g6 rfl rfl rfl rfl rfl rfl rfl rfl) heq
      exact ⟨f1, f2.trans (jump_same s d t), f3⟩

theorem removeConstraint_leave {sq : K → K} {s s' : QPC K} (h : s.Good) (hO : OptionsOK s.options) {k : Nat} (hk : k ∈ s.cons.fixed)
    (hty : s.cons.type k ≠ ST_EQUALITY) (hy : s.y (s.nV + k) = 0) (hc : CleanLeaveC sq s k)
    (heq : removeConstraint sq s k true true s.options.enableNZCTests = .ok (SUCCESSFUL_RETURN, s')) : s'.Good ∧ Same s' s ∧ s'.y = s.y := by
  rcases hc with hc | ⟨hz, hc⟩
  · exact removeConstraint_out h hk hty hy hc heq
  · unfold removeConstraint at heq
    split at heq
    · simp only [Res.ok.injEq, Prod.mk.injEq] at heq; exact absurd heq.1 (by decide)
    split at heq
    · simp only [Res.ok.injEq, Prod.mk.injEq] at heq; exact absurd heq.1 (by decide)
    split at heq
    · simp only [Res.ok.injEq, Prod.mk.injEq] at heq; exact absurd heq.1 (by decide)
    rw [Res.bind_eq_ok] at heq
    obtain ⟨⟨r, s1, c⟩, e1, heq⟩ := heq
    dsimp only at heq
    split at heq
    · next hr => simp only [Res.ok.injEq, Prod.mk.injEq] at heq; exact absurd heq.1 hr
    · next hr =>
      rw [not_not] at hr
      subst hr
      obtain ⟨d, t, c', rfl, rfl, g1, g2, g3, g4, g5, g6, g7⟩ := hc.jumps h.facs hO e1
      rw [if_neg (by decide)] at g7
      obtain ⟨o1, o2⟩ := jump_optC h hk hty hy g1 g2 g4
      obtain ⟨f1, f2, f3⟩ := removeConstraintUpdate_swap (jump_facs h.facs d t) (jump_ax s d t) hk g7 (AtLimit.status g5)
        (fun T Q R => ⟨jump_stat h g1 t, o1, o2⟩)
        (fun T Q R => jump_hitC h hk hty g1 g5 g6 rfl rfl rfl rfl rfl rfl rfl rfl) heq
      exact ⟨f1, f2.trans (jump_same s d t), f3⟩

/-- The change of the working set at the end of a step is exact. -/
def CleanChange (sq : K → K) (s : QPC K) : Option Change → Prop
  | none => True
  | some ⟨true, i, ST_INACTIVE⟩ => CleanLeaveB sq s i
  | some ⟨false, i, ST_INACTIVE⟩ => CleanLeaveC sq s i
  | some ⟨true, i, st⟩ => CleanInB sq s i st
  | some ⟨false, i, st⟩ => CleanInC sq s i st

/-- A successful change of the working set keeps factors, optimality and stored values in order. -/
theorem changeActiveSet_spec {sq : K → K} {s s' : QPC K} (h : s.Good) (hO : OptionsOK s.options) {bc : Option Change} (hl : AtLimit s bc)
    (hc : CleanChange sq s bc) (heq : changeActiveSet sq s bc = .ok (SUCCESSFUL_RETURN, s')) : s'.Good ∧ Same s' s := by
  have hin : ∀ (isB : Bool) (i : Nat) (st : SubjectToStatus), st = ST_LOWER ∨ st = ST_UPPER → bc = some ⟨isB, i, st⟩ → s'.Good ∧ Same s' s := by
    intro isB i st hst hbc
    subst hbc
    cases isB with
    | true =>
      have hc' : CleanInB sq s i st := by rcases hst with rfl | rfl <;> exact hc
      have heq' : (addBound sq s i st >>= fun p => if p.1 = RET_ADDBOUND_FAILED_INFEASIBILITY then .ok (p.1, p.2)
          else .ok (if p.1 ≠ SUCCESSFUL_RETURN then RET_ADD_TO_ACTIVESET_FAILED else SUCCESSFUL_RETURN, p.2)) = .ok (SUCCESSFUL_RETURN, s') := by
        rcases hst with rfl | rfl <;> exact heq
      rw [Res.bind_eq_ok] at heq'
      obtain ⟨⟨r, s1⟩, e1, e2⟩ := heq'
      dsimp only at e2
      have hr : r = SUCCESSFUL_RETURN ∧ s1 = s' := by
        split at e2
        · next hr => simp only [Res.ok.injEq, Prod.mk.injEq] at e2; rw [hr] at e2; exact absurd e2.1 (by decide)
        · by_cases hr : r = SUCCESSFUL_RETURN
          · simp only [Res.ok.injEq, Prod.mk.injEq] at e2; exact ⟨hr, e2.2⟩
          · rw [if_pos hr] at e2; simp only [Res.ok.injEq, Prod.mk.injEq] at e2; exact absurd e2.1 (by decide)
      obtain ⟨rfl, rfl⟩ := hr
      rcases hst with rfl | rfl
      · obtain ⟨m, ty, lv⟩ := hl
        exact addBound_spec h hO (Or.inl rfl) m ty (fun _ => lv) (fun e => by cases e) hc' e1
      · obtain ⟨m, ty, lv⟩ := hl
        exact addBound_spec h hO (Or.inr rfl) m ty (fun e => by cases e) (fun _ => lv) hc' e1
    | false =>
      have hc' : CleanInC sq s i st := by rcases hst with rfl | rfl <;> exact hc
      have heq' : (addConstraint sq s i st >>= fun p => if p.1 = RET_ADDCONSTRAINT_FAILED_INFEASIBILITY then .ok (p.1, p.2)
          else .ok (if p.1 ≠ SUCCESSFUL_RETURN then RET_ADD_TO_ACTIVESET_FAILED else SUCCESSFUL_RETURN, p.2)) = .ok (SUCCESSFUL_RETURN, s') := by
        rcases hst with rfl | rfl <;> exact heq
      rw [Res.bind_eq_ok] at heq'
      obtain ⟨⟨r, s1⟩, e1, e2⟩ := heq'
      dsimp only at e2
      have hr : r = SUCCESSFUL_RETURN ∧ s1 = s' := by
        split at e2
        · next hr => simp only [Res.ok.injEq, Prod.mk.injEq] at e2; rw [hr] at e2; exact absurd e2.1 (by decide)
        · by_cases hr : r = SUCCESSFUL_RETURN
          · simp only [Res.ok.injEq, Prod.mk.injEq] at e2; exact ⟨hr, e2.2⟩
          · rw [if_pos hr] at e2; simp only [Res.ok.injEq, Prod.mk.injEq] at e2; exact absurd e2.1 (by decide)
      obtain ⟨rfl, rfl⟩ := hr
      rcases hst with rfl | rfl
      · obtain ⟨m, ty, lv⟩ := hl
        exact addConstraint_spec h hO (Or.inl rfl) m ty (fun _ => lv) (fun e => by cases e) hc' e1
      · obtain ⟨m, ty, lv⟩ := hl
        exact addConstraint_spec h hO (Or.inr rfl) m ty (fun e => by cases e) (fun _ => lv) hc' e1
  rcases bc with _ | ⟨isB, i, st⟩
  · cases heq
    exact ⟨h, Same.refl _⟩
  · by_cases hst : st = ST_LOWER ∨ st = ST_UPPER
    · exact hin isB i st hst rfl
    · have hst' : st = ST_INACTIVE := by
        cases st <;> first | rfl | exact absurd (Or.inl rfl) hst | exact absurd (Or.inr rfl) hst | (cases isB <;> exact absurd hl id)
      subst hst'
      cases isB with
      | true =>
        obtain ⟨m, ty, hy⟩ := hl
        unfold changeActiveSet at heq
        rw [Res.bind_eq_ok] at heq
        obtain ⟨⟨r, s1⟩, e1, e2⟩ := heq
        dsimp only at e2
        split at e2
        · simp only [Res.ok.injEq, Prod.mk.injEq] at e2; exact absurd e2.1 (by decide)
        · next hr =>
          rw [not_not] at hr
          subst hr
          obtain ⟨f1, f2, f3⟩ := removeBound_leave h hO m ty hy hc e1
          have e : ({ s1 with y := updA s1.y i 0 } : QPC K) = s1 := by rw [updA_self (by rw [f3]; exact hy)]
          rw [e] at e2
          cases e2
          exact ⟨f1, f2⟩
      | false =>
        obtain ⟨m, ty, hy⟩ := hl
        unfold changeActiveSet at heq
        rw [Res.bind_eq_ok] at heq
        obtain ⟨⟨r, s1⟩, e1, e2⟩ := heq
        dsimp only at e2
        split at e2
        · simp only [Res.ok.injEq, Prod.mk.injEq] at e2; exact absurd e2.1 (by decide)
        · next hr =>
          rw [not_not] at hr
          subst hr
          obtain ⟨f1, f2, f3⟩ := removeConstraint_leave h hO m ty hy hc e1
          have e : ({ s1 with y := updA s1.y (s1.nV + i) 0 } : QPC K) = s1 := by rw [updA_self (by rw [f3, f2.nV]; exact hy)]
          rw [e] at e2
          cases e2
          exact ⟨f1, f2⟩

end QPC
end QpOASES
