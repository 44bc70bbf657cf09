import Verif.Proofs.QPCSide

/-!
The iterate of the solver for general constraints is optimal for the current problem of the homotopy, and a step keeps it so.
-/
namespace QpOASES
open Finset Props SubjectToStatus SubjectToType ReturnValue HessianType
open QPB (sg DenOK sg_sub sg_ne nonneg_shorten getMax_nonneg getMax_of_nonneg)

set_option linter.unusedSectionVars false

variable {K : Type} [Field K] [LinearOrder K] [IsStrictOrderedRing K]

namespace QPC

/-- `A*x`, with the sum written out. -/
theorem prodA_eq (s : QPC K) (x : Nat → K) (i : Nat) : s.prodA x i = ∑ j ∈ range s.nV, s.A i j * x j := by
  unfold prodA
  rw [sumTo_eq]

/-- The current iterate is optimal for the current data.  The limits of an inactive constraint are observed unless its type says that it
has none. -/
structure Opt (s : QPC K) : Prop where
  stat : ∀ i < s.nV, ∑ j ∈ range s.nV, s.Heff i j * s.x j + s.g i = s.y i + ∑ k ∈ range s.nC, s.A k i * s.y (s.nV + k)
  bounds : SideOK s.bounds (fun _ => True) s.x s.lb s.ub s.y s.nV
  cons : SideOK s.cons (fun i => s.cons.type i ≠ ST_UNBOUNDED) (s.prodA s.x) s.lbA s.ubA (fun k => s.y (s.nV + k)) s.nC

/-- The stored values of the constraints are those of the iterate. -/
def AxOK (s : QPC K) : Prop :=
  ∀ i < s.nC, s.cons.type i ≠ ST_UNBOUNDED → s.Ax i = s.prodA s.x i ∧ s.Axl i = s.prodA s.x i - s.lbA i ∧ s.Axu i = s.ubA i - s.prodA s.x i

theorem takeStep_fields (s : QPC K) (h : Shift K) (d : Dir K) (tau : K) :
    (takeStep s h d tau) = { s with
      tau := tau
      x := (takeStep s h d tau).x
      y := (takeStep s h d tau).y
      g := (takeStep s h d tau).g
      lb := (takeStep s h d tau).lb
      ub := (takeStep s h d tau).ub
      lbA := (takeStep s h d tau).lbA
      ubA := (takeStep s h d tau).ubA
      Ax := (takeStep s h d tau).Ax
      Axl := (takeStep s h d tau).Axl
      Axu := (takeStep s h d tau).Axu } := by
  unfold takeStep
  dsimp only
  split <;> rfl

theorem addAt_apply (t : K) (d : Nat → K) (idx : List Nat) (v : Nat → K) (hn : idx.Nodup) (j : Nat) :
    addAt t d idx v j = if j ∈ idx then v j + t * d (idx.idxOf j) else v j := by
  unfold addAt
  rw [QPB.addAt_apply _ _ _ _ _ hn, Nat.zero_add]

theorem idxOf_map_add (n : Nat) : ∀ (l : List Nat) (i : Nat), (l.map (n + ·)).idxOf (n + i) = l.idxOf i := by
  intro l i
  induction l with
  | nil => rfl
  | cons a l ih =>
    rw [List.map_cons, List.idxOf_cons, List.idxOf_cons, ih]
    have : (n + a == n + i) = (a == i) := by
      rw [Bool.eq_iff_iff, beq_iff_eq, beq_iff_eq]; omega
    rw [this]

theorem mem_map_add {n : Nat} {l : List Nat} {i : Nat} : n + i ∈ l.map (n + ·) ↔ i ∈ l := by
  rw [List.mem_map]
  constructor
  · rintro ⟨a, ha, e⟩
    rw [← Nat.add_left_cancel e]; exact ha
  · exact fun h => ⟨i, h, rfl⟩

theorem not_mem_map_add {n : Nat} {l : List Nat} {i : Nat} (hi : i < n) : i ∉ l.map (n + ·) := by
  rw [List.mem_map]
  rintro ⟨a, _, e⟩
  omega

theorem nodup_map_add {n : Nat} {l : List Nat} (h : l.Nodup) : (l.map (n + ·)).Nodup :=
  h.map (fun _ _ e => Nat.add_left_cancel e)

/-- The multipliers after a change along the active members. -/
theorem addAt_duals {s : QPC K} (hs : s.Shape) (t : K) (dB dC : Nat → K) (y : Nat → K) :
    (∀ i < s.nV, addAt t dC (s.cons.fixed.map (s.nV + ·)) (addAt t dB s.bounds.fixed y) i = y i + t * s.bounds.scatter (fun _ => 0) dB i) ∧
    (∀ k < s.nC, addAt t dC (s.cons.fixed.map (s.nV + ·)) (addAt t dB s.bounds.fixed y) (s.nV + k) =
      y (s.nV + k) + t * s.cons.scatter (fun _ => 0) dC k) := by
  have hwB := hs.okB
  have hwC := hs.okC
  refine ⟨fun i hi => ?_, fun k hk => ?_⟩
  · rw [addAt_apply _ _ _ _ (nodup_map_add hwC.nodup_fixed), if_neg (not_mem_map_add hi), addAt_apply _ _ _ _ hwB.nodup_fixed]
    unfold WS.scatter
    rw [← hs.nB] at hi
    rcases hwB.mem_iff.1 hi with h | h
    · rw [if_neg (fun h' => hwB.disjoint h h'), if_pos h, mul_zero, add_zero]
    · rw [if_pos h, if_neg (fun h' => hwB.disjoint h' h)]
  · have hno : s.nV + k ∉ s.bounds.fixed := by
      intro h
      have := hwB.lt_fixed h
      rw [hs.nB] at this
      omega
    rw [addAt_apply _ _ _ _ (nodup_map_add hwC.nodup_fixed), addAt_apply _ _ _ _ hwB.nodup_fixed, if_neg hno, idxOf_map_add]
    unfold WS.scatter
    rw [← hs.nC] at hk
    rcases hwC.mem_iff.1 hk with h | h
    · rw [if_neg (fun h' => hwC.disjoint h (mem_map_add.1 h')), if_pos h, mul_zero, add_zero]
    · rw [if_pos (mem_map_add.2 h), if_neg (fun h' => hwC.disjoint h' h)]

theorem prodA_add (s : QPC K) {x d x' : Nat → K} {t : K} (hx : ∀ j < s.nV, x' j = x j + t * d j) (i : Nat) :
    s.prodA x' i = s.prodA x i + t * s.prodA d i := by
  rw [prodA_eq, prodA_eq, prodA_eq, mul_sum, ← sum_add_distrib]
  refine sum_congr rfl fun j hj => ?_
  rw [hx j (mem_range.1 hj)]; ring

theorem takeStep_data {s : QPC K} (hs : s.Shape) (h : Shift K) (d : Dir K) {tau : K} (ht : tau = 0 ∨ ZERO < tau) :
    (∀ i < s.nV, (takeStep s h d tau).x i = s.x i + tau * s.dirX d i) ∧
    (∀ i < s.nV, (takeStep s h d tau).y i = s.y i + tau * s.dirY d i) ∧
    (∀ k < s.nC, (takeStep s h d tau).y (s.nV + k) = s.y (s.nV + k) + tau * s.dirYC d k) ∧
    (∀ i, (takeStep s h d tau).g i = s.g i + tau * h.g i) ∧
    (∀ i, (takeStep s h d tau).lb i = s.lb i + tau * h.lb i) ∧
    (∀ i, (takeStep s h d tau).ub i = s.ub i + tau * h.ub i) ∧
    (∀ i, (takeStep s h d tau).lbA i = s.lbA i + tau * h.lbA i) ∧
    (∀ i, (takeStep s h d tau).ubA i = s.ubA i + tau * h.ubA i) ∧
    (s.AxOK → (takeStep s h d tau).AxOK) := by
  have hwB := hs.okB
  have hwC := hs.okC
  unfold takeStep
  dsimp only
  rcases ht with ht | ht
  · subst ht
    rw [if_neg (not_lt.2 ZERO_pos.le)]
    refine ⟨fun i _ => ?_, fun i _ => ?_, fun i _ => ?_, fun i => ?_, fun i => ?_, fun i => ?_, fun i => ?_, fun i => ?_, fun hA => hA⟩ <;> simp
  · rw [if_pos ht]
    obtain ⟨y1, y2⟩ := addAt_duals hs tau d.yFX d.yAC s.y
    have hx : ∀ i < s.nV, addAt tau d.xFX s.bounds.fixed (addAt tau d.xFR s.bounds.free s.x) i = s.x i + tau * s.dirX d i := by
      intro i hi
      rw [addAt_apply _ _ _ _ hwB.nodup_fixed, addAt_apply _ _ _ _ hwB.nodup_free]
      unfold dirX
      rw [← hs.nB] at hi
      rcases hwB.mem_iff.1 hi with h | h
      · rw [if_neg (fun h' => hwB.disjoint h h'), if_pos h, if_pos (List.contains_iff_mem.2 h)]
      · rw [if_pos h, if_neg (fun h' => hwB.disjoint h' h), if_neg (fun h' => hwB.disjoint (List.contains_iff_mem.1 h') h),
          if_pos (List.contains_iff_mem.2 h)]
    refine ⟨hx, y1, y2, fun i => rfl, fun i => rfl, fun i => rfl, fun i => rfl, fun i => rfl, fun hA i hi hty => ?_⟩
    have hp := prodA_add s hx i
    obtain ⟨a1, a2, a3⟩ := hA i hi hty
    have hd : s.dirAx d i = s.prodA (s.dirX d) i := rfl
    dsimp only at hi hty ⊢
    change (if s.cons.fixed.contains i = true then s.prodA _ i else _) = s.prodA _ i ∧
      (if s.cons.fixed.contains i = true then s.prodA _ i - _ else _) = s.prodA _ i - _ ∧
      (if s.cons.fixed.contains i = true then _ - s.prodA _ i else _) = _ - s.prodA _ i
    by_cases hm : s.cons.fixed.contains i = true
    · rw [if_pos hm, if_pos hm, if_pos hm]
      exact ⟨rfl, rfl, rfl⟩
    · rw [if_neg hm, if_neg hm, if_neg hm]
      have hfree : i ∈ s.cons.free := by
        have hi' := hi
        rw [← hs.nC] at hi'
        rcases hwC.mem_iff.1 hi' with h | h
        · exact h
        · exact absurd (List.contains_iff_mem.2 h) hm
      have hina : (s.cons.free.contains i && s.cons.type i != ST_UNBOUNDED) = true := by
        rw [Bool.and_eq_true, List.contains_iff_mem, bne_iff_ne]
        exact ⟨hfree, hty⟩
      rw [if_pos hina, if_pos hina, if_pos hina, hp, a1, a2, a3, hd]
      refine ⟨rfl, ?_, ?_⟩ <;> ring

/-- What is known of the limit that stopped the step. -/
def AtLimit (s : QPC K) : Option Change → Prop
  | none => True
  | some ⟨true, i, ST_INACTIVE⟩ => i ∈ s.bounds.fixed ∧ s.bounds.type i ≠ ST_EQUALITY ∧ s.y i = 0
  | some ⟨false, i, ST_INACTIVE⟩ => i ∈ s.cons.fixed ∧ s.cons.type i ≠ ST_EQUALITY ∧ s.y (s.nV + i) = 0
  | some ⟨true, i, ST_LOWER⟩ => i ∈ s.bounds.free ∧ s.bounds.type i ≠ ST_EQUALITY ∧ s.x i = s.lb i
  | some ⟨true, i, ST_UPPER⟩ => i ∈ s.bounds.free ∧ s.bounds.type i ≠ ST_EQUALITY ∧ s.x i = s.ub i
  | some ⟨false, i, ST_LOWER⟩ => i ∈ s.cons.free ∧ s.cons.type i ≠ ST_EQUALITY ∧ s.prodA s.x i = s.lbA i
  | some ⟨false, i, ST_UPPER⟩ => i ∈ s.cons.free ∧ s.cons.type i ≠ ST_EQUALITY ∧ s.prodA s.x i = s.ubA i
  | _ => False

/-- No denominator of the ratio tests is positive but too small to be noticed. -/
structure NoTiny (s : QPC K) (h : Shift K) (d : Dir K) : Prop where
  dualC : ∀ k < s.nAC, s.cons.type (s.ac k) ≠ ST_EQUALITY → DenOK s.options.epsDen (sg s.cons (s.ac k) (-d.yAC k))
  dualB : ∀ k < s.nFX, s.bounds.type (s.fx k) ≠ ST_EQUALITY → DenOK s.options.epsDen (sg s.bounds (s.fx k) (-d.yFX k))
  lowerC : s.cons.noLower = false → ∀ k < s.nIAC, DenOK s.options.epsDen (h.lbA (s.iac k) - s.dirAx d (s.iac k))
  upperC : s.cons.noUpper = false → ∀ k < s.nIAC, DenOK s.options.epsDen (s.dirAx d (s.iac k) - h.ubA (s.iac k))
  lowerB : s.bounds.noLower = false → ∀ k < s.nFR, DenOK s.options.epsDen (h.lb (s.fr k) - d.xFR k)
  upperB : s.bounds.noUpper = false → ∀ k < s.nFR, DenOK s.options.epsDen (d.xFR k - h.ub (s.fr k))

/-- Shift towards target data -/
def shiftTo (s : QPC K) (gN lbN ubN lbAN ubAN : Nat → K) : Shift K :=
  { g := fun i => gN i - s.g i, lb := fun i => lbN i - s.lb i, ub := fun i => ubN i - s.ub i,
    lbA := fun i => lbAN i - s.lbA i, ubA := fun i => ubAN i - s.ubA i }

/-- A constraint that stops the step has a limit. -/
def HasLimit (s : QPC K) : Option Change → Prop
  | some ⟨false, i, ST_INACTIVE⟩ => i = i
  | some ⟨false, i, _⟩ => s.cons.type i ≠ ST_UNBOUNDED
  | _ => True

theorem Opt.takeStep {s : QPC K} (h : s.Opt) (hA : s.AxOK) (hs : s.Shape) {gN lbN ubN lbAN ubAN : Nat → K} {bC bB : Bool} {d : Dir K} {tau : K}
    {bc : Option Change} (hd : DirOK s (s.shiftTo gN lbN ubN lbAN ubAN) bC bB d)
    (hzB : bB = true → ∀ i ∈ s.bounds.fixed, (if s.bounds.status i = ST_LOWER then lbN i - s.lb i else ubN i - s.ub i) = 0)
    (hzC : bC = true → ∀ i ∈ s.cons.fixed, (if s.cons.status i = ST_LOWER then lbAN i - s.lbA i else ubAN i - s.ubA i) = 0)
    (h0 : 0 ≤ tau) (h1 : tau ≤ 1) (hst : StepOK s (s.shiftTo gN lbN ubN lbAN ubAN) d tau)
    (hbl : Blocks s (s.shiftTo gN lbN ubN lbAN ubAN) d tau bc)
    (hnt : NoTiny s (s.shiftTo gN lbN ubN lbAN ubAN) d) (ht : tau = 0 ∨ ZERO < tau) (hlim : HasLimit s bc)
    (hbox : ∀ i < s.nV, lbN i ≤ ubN i) (heq : ∀ i < s.nV, s.bounds.type i = ST_EQUALITY → lbN i = ubN i)
    (hboxA : ∀ i < s.nC, lbAN i ≤ ubAN i) (heqA : ∀ i < s.nC, s.cons.type i = ST_EQUALITY → lbAN i = ubAN i) :
    (QPC.takeStep s (s.shiftTo gN lbN ubN lbAN ubAN) d tau).Opt ∧ AxOK (QPC.takeStep s (s.shiftTo gN lbN ubN lbAN ubAN) d tau) ∧
    AtLimit (QPC.takeStep s (s.shiftTo gN lbN ubN lbAN ubAN) d tau) bc := by
  have hwB := hs.okB
  have hwC := hs.okC
  obtain ⟨ex, ey, eyc, eg, el, eu, elA, euA, eA⟩ := takeStep_data hs (s.shiftTo gN lbN ubN lbAN ubAN) d ht
  have ef := takeStep_fields s (s.shiftTo gN lbN ubN lbAN ubAN) d tau
  replace eA := eA hA
  generalize QPC.takeStep s (s.shiftTo gN lbN ubN lbAN ubAN) d tau = s1 at *
  have enV : s1.nV = s.nV := by rw [ef]
  have enC : s1.nC = s.nC := by rw [ef]
  have eb : s1.bounds = s.bounds := by rw [ef]
  have ec : s1.cons = s.cons := by rw [ef]
  have eH : s1.Heff = s.Heff := by rw [ef]; rfl
  have eAm : s1.A = s.A := by rw [ef]
  have eP : ∀ x, s1.prodA x = s.prodA x := fun x => by rw [ef]; rfl
  have exA : ∀ i, s1.prodA s1.x i = s.prodA s.x i + tau * s.dirAx d i := fun i => by rw [eP]; exact prodA_add s ex i
  -- the active members move with their limits
  have hactB : ∀ i ∈ s.bounds.fixed, s.dirX d i = if s.bounds.status i = ST_LOWER then lbN i - s.lb i else ubN i - s.ub i := by
    intro i hi
    have hk := WS.idxOf_fx_lt hi
    have e := dirX_fx hwB d hk
    have e' := hd.bounds _ hk
    unfold dirFX at e'
    rw [show s.fx (s.bounds.fixed.idxOf i) = i from WS.fx_idxOf hi] at e e'
    rw [e, e']
    by_cases hzz : bB = true
    · rw [if_pos hzz, hzB hzz i hi]
    · rw [if_neg hzz, WS.getStatus_of_lt (w := s.bounds) (hwB.lt_fixed hi)]
      rfl
  have hactC : ∀ i ∈ s.cons.fixed, s.dirAx d i = if s.cons.status i = ST_LOWER then lbAN i - s.lbA i else ubAN i - s.ubA i := by
    intro i hi
    have hk := WS.idxOf_fx_lt hi
    have e' := hd.cons _ hk
    unfold shiftAC at e'
    rw [show s.ac (s.cons.fixed.idxOf i) = i from WS.fx_idxOf hi] at e'
    rw [e']
    by_cases hzz : bC = true
    · rw [if_pos hzz, hzC hzz i hi]
    · rw [if_neg hzz, WS.getStatus_of_lt (w := s.cons) (hwC.lt_fixed hi)]
      rfl
  have hsgB : ∀ i ∈ s.bounds.fixed, s.bounds.type i ≠ ST_EQUALITY → 0 ≤ sg s.bounds i (s.y i + tau * s.dirY d i) := by
    intro i hi hty
    have hk := WS.idxOf_fx_lt hi
    have e : s.fx (s.bounds.fixed.idxOf i) = i := WS.fx_idxOf hi
    have g1 := hst.dualB _ hk (by rw [e]; exact hty) (hnt.dualB _ hk (by rw [e]; exact hty))
    have g2 : s.dirY d (s.fx (s.bounds.fixed.idxOf i)) = _ := hwB.scatter_fx (fun _ => 0) d.yFX hk
    rw [e] at g1 g2
    rw [g2]; exact g1
  have hsgC : ∀ i ∈ s.cons.fixed, s.cons.type i ≠ ST_EQUALITY → 0 ≤ sg s.cons i (s.y (s.nV + i) + tau * s.dirYC d i) := by
    intro i hi hty
    have hk := WS.idxOf_fx_lt hi
    have e : s.ac (s.cons.fixed.idxOf i) = i := WS.fx_idxOf hi
    have g1 := hst.dualC _ hk (by rw [e]; exact hty) (hnt.dualC _ hk (by rw [e]; exact hty))
    have g2 : s.dirYC d (s.ac (s.cons.fixed.idxOf i)) = _ := hwC.scatter_fx (fun _ => 0) d.yAC hk
    rw [e] at g1 g2
    rw [g2]; exact g1
  have hfrB : ∀ i ∈ s.bounds.free, s.fr (s.bounds.free.idxOf i) = i ∧ d.xFR (s.bounds.free.idxOf i) = s.dirX d i := by
    intro i hi
    have e : s.fr (s.bounds.free.idxOf i) = i := WS.fr_idxOf hi
    have e' := dirX_fr hwB d (WS.idxOf_fr_lt hi)
    rw [e] at e'
    exact ⟨e, e'.symm⟩
  have hloB : s.bounds.noLower = false → ∀ i ∈ s.bounds.free, s.bounds.type i ≠ ST_EQUALITY →
      tau * (lbN i - s.lb i - s.dirX d i) ≤ s.x i - s.lb i := by
    intro hl i hi hty
    obtain ⟨e, e'⟩ := hfrB i hi
    have hlt : i < s.nV := by rw [← hs.nB]; exact hwB.lt_free hi
    have g := hst.lowerB hl _ (WS.idxOf_fr_lt hi) (by rw [e]; exact hty) (hnt.lowerB hl _ (WS.idxOf_fr_lt hi))
    rw [e, e', getMax_of_nonneg (sub_nonneg.2 (((h.bounds.inactive i hlt (hwB.free i hi)).2 trivial).1 hl))] at g
    exact g
  have hupB : s.bounds.noUpper = false → ∀ i ∈ s.bounds.free, s.bounds.type i ≠ ST_EQUALITY →
      tau * (s.dirX d i - (ubN i - s.ub i)) ≤ s.ub i - s.x i := by
    intro hl i hi hty
    obtain ⟨e, e'⟩ := hfrB i hi
    have hlt : i < s.nV := by rw [← hs.nB]; exact hwB.lt_free hi
    have g := hst.upperB hl _ (WS.idxOf_fr_lt hi) (by rw [e]; exact hty) (hnt.upperB hl _ (WS.idxOf_fr_lt hi))
    rw [e, e', getMax_of_nonneg (sub_nonneg.2 (((h.bounds.inactive i hlt (hwB.free i hi)).2 trivial).2 hl))] at g
    exact g
  have hloC : s.cons.noLower = false → ∀ i ∈ s.cons.free, s.cons.type i ≠ ST_UNBOUNDED → s.cons.type i ≠ ST_EQUALITY →
      tau * (lbAN i - s.lbA i - s.dirAx d i) ≤ s.prodA s.x i - s.lbA i := by
    intro hl i hi hub hty
    have e : s.iac (s.cons.free.idxOf i) = i := WS.fr_idxOf hi
    have hlt : i < s.nC := by rw [← hs.nC]; exact hwC.lt_free hi
    have g := hst.lowerC hl _ (WS.idxOf_fr_lt hi) (by rw [e]; exact hty) (hnt.lowerC hl _ (WS.idxOf_fr_lt hi))
    rw [e, (hA i hlt hub).2.1, getMax_of_nonneg (sub_nonneg.2 (((h.cons.inactive i hlt (hwC.free i hi)).2 hub).1 hl))] at g
    exact g
  have hupC : s.cons.noUpper = false → ∀ i ∈ s.cons.free, s.cons.type i ≠ ST_UNBOUNDED → s.cons.type i ≠ ST_EQUALITY →
      tau * (s.dirAx d i - (ubAN i - s.ubA i)) ≤ s.ubA i - s.prodA s.x i := by
    intro hl i hi hub hty
    have e : s.iac (s.cons.free.idxOf i) = i := WS.fr_idxOf hi
    have hlt : i < s.nC := by rw [← hs.nC]; exact hwC.lt_free hi
    have g := hst.upperC hl _ (WS.idxOf_fr_lt hi) (by rw [e]; exact hty) (hnt.upperC hl _ (WS.idxOf_fr_lt hi))
    rw [e, (hA i hlt hub).2.2, getMax_of_nonneg (sub_nonneg.2 (((h.cons.inactive i hlt (hwC.free i hi)).2 hub).2 hl))] at g
    exact g
  refine ⟨⟨?_, ?_, ?_⟩, eA, ?_⟩
  · rw [enV, enC, eH, eAm]
    intro i hi
    have g := hd.stat i hi
    have g0 := h.stat i hi
    have e1 : ∑ j ∈ range s.nV, s.Heff i j * s1.x j = ∑ j ∈ range s.nV, s.Heff i j * s.x j + tau * ∑ j ∈ range s.nV, s.Heff i j * s.dirX d j := by
      rw [mul_sum, ← sum_add_distrib]
      refine sum_congr rfl fun j hj => ?_
      rw [ex j (mem_range.1 hj)]; ring
    have e2 : ∑ k ∈ range s.nC, s.A k i * s1.y (s.nV + k) = ∑ k ∈ range s.nC, s.A k i * s.y (s.nV + k) + tau * ∑ k ∈ range s.nC, s.A k i * s.dirYC d k := by
      rw [mul_sum, ← sum_add_distrib]
      refine sum_congr rfl fun j hj => ?_
      rw [eyc j (mem_range.1 hj)]; ring
    rw [e1, e2, eg, ey i hi]
    linear_combination g0 + tau * g
  · rw [enV, eb]
    exact h.bounds.step hwB hs.nB h0 h1 hactB (fun i hi => if_pos hi) hsgB (fun hl i hi _ => hloB hl i hi) (fun hl i hi _ => hupB hl i hi)
      hbox heq ex (fun i _ => el i) (fun i _ => eu i) ey
  · rw [enV, enC, ec]
    exact h.cons.step hwC hs.nC h0 h1 hactC (fun i hi => if_pos hi) hsgC hloC hupC
      hboxA heqA (fun i _ => exA i) (fun i _ => elA i) (fun i _ => euA i) eyc
  · rcases bc with _ | ⟨isB, i, st⟩
    · trivial
    · rcases isB with _ | _ <;> cases st <;> try exact hbl
      · obtain ⟨_, hl, hm, hty, e, _⟩ := hbl
        have hlt : i < s.nC := by rw [← hs.nC]; exact hwC.lt_free hm
        show i ∈ s1.cons.free ∧ s1.cons.type i ≠ ST_EQUALITY ∧ s1.prodA s1.x i = s1.lbA i
        rw [ec]
        refine ⟨hm, hty, ?_⟩
        rw [(hA i hlt hlim).2.1, getMax_of_nonneg (sub_nonneg.2 (((h.cons.inactive i hlt (hwC.free i hm)).2 hlim).1 hl))] at e
        rw [exA, elA]
        linear_combination e
      · obtain ⟨_, k, hk, hik, hty, e, _⟩ := hbl
        have hm : i ∈ s.cons.fixed := by rw [hik]; exact WS.fx_mem hk
        have hlt : i < s.nC := by rw [← hs.nC]; exact hwC.lt_fixed hm
        show i ∈ s1.cons.fixed ∧ s1.cons.type i ≠ ST_EQUALITY ∧ s1.y (s1.nV + i) = 0
        rw [ec, enV]
        refine ⟨hm, hty, ?_⟩
        rw [eyc i hlt, ← e]
        have : s.dirYC d i = d.yAC k := by
          rw [hik]; exact hwC.scatter_fx (fun _ => 0) d.yAC hk
        rw [this]
      · obtain ⟨_, hl, hm, hty, e, _⟩ := hbl
        have hlt : i < s.nC := by rw [← hs.nC]; exact hwC.lt_free hm
        show i ∈ s1.cons.free ∧ s1.cons.type i ≠ ST_EQUALITY ∧ s1.prodA s1.x i = s1.ubA i
        rw [ec]
        refine ⟨hm, hty, ?_⟩
        rw [(hA i hlt hlim).2.2, getMax_of_nonneg (sub_nonneg.2 (((h.cons.inactive i hlt (hwC.free i hm)).2 hlim).2 hl))] at e
        rw [exA, euA]
        linear_combination -e
      · obtain ⟨_, hl, k, hk, hik, hty, e, _⟩ := hbl
        have hm : i ∈ s.bounds.free := by rw [hik]; exact WS.fr_mem hk
        have hlt : i < s.nV := by rw [← hs.nB]; exact hwB.lt_free hm
        show i ∈ s1.bounds.free ∧ s1.bounds.type i ≠ ST_EQUALITY ∧ s1.x i = s1.lb i
        rw [eb]
        refine ⟨hm, hty, ?_⟩
        rw [getMax_of_nonneg (sub_nonneg.2 (((h.bounds.inactive i hlt (hwB.free i hm)).2 trivial).1 hl))] at e
        have : s.dirX d i = d.xFR k := by rw [hik]; exact dirX_fr hwB d hk
        rw [ex i hlt, el, this]
        linear_combination e
      · obtain ⟨_, k, hk, hik, hty, e, _⟩ := hbl
        have hm : i ∈ s.bounds.fixed := by rw [hik]; exact WS.fx_mem hk
        have hlt : i < s.nV := by rw [← hs.nB]; exact hwB.lt_fixed hm
        show i ∈ s1.bounds.fixed ∧ s1.bounds.type i ≠ ST_EQUALITY ∧ s1.y i = 0
        rw [eb]
        refine ⟨hm, hty, ?_⟩
        have : s.dirY d i = d.yFX k := by
          rw [hik]; exact hwB.scatter_fx (fun _ => 0) d.yFX hk
        rw [ey i hlt, ← e, this]
      · obtain ⟨_, hl, k, hk, hik, hty, e, _⟩ := hbl
        have hm : i ∈ s.bounds.free := by rw [hik]; exact WS.fr_mem hk
        have hlt : i < s.nV := by rw [← hs.nB]; exact hwB.lt_free hm
        show i ∈ s1.bounds.free ∧ s1.bounds.type i ≠ ST_EQUALITY ∧ s1.x i = s1.ub i
        rw [eb]
        refine ⟨hm, hty, ?_⟩
        rw [getMax_of_nonneg (sub_nonneg.2 (((h.bounds.inactive i hlt (hwB.free i hm)).2 trivial).2 hl))] at e
        have : s.dirX d i = d.xFR k := by rw [hik]; exact dirX_fr hwB d hk
        rw [ex i hlt, eu, this]
        linear_combination -e

end QPC
end QpOASES
