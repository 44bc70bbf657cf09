import Verif.Proofs.QPCNull
import Verif.Proofs.QPCChol
import Verif.Proofs.QPBLoop

/-!
Drift correction, ramping and the main loop of the solver for general constraints.
-/
namespace QpOASES
open Finset Props SubjectToStatus SubjectToType ReturnValue HessianType QProblemStatus
open QPB (getMin_le_right le_getMax_right getMin_le_left le_getMax_left)

set_option linter.unusedSectionVars false

variable {K : Type} [Field K] [LinearOrder K] [IsStrictOrderedRing K]

namespace SideOK
variable {w : WS} {obs : Nat → Prop} {v l u y : Nat → K} {n : Nat}

/-- A member that drift correction and ramping leave alone must be in order; an equality must be active. -/
def Fixable (w : WS) (obs : Nat → Prop) (v l u y : Nat → K) (i : Nat) : Prop :=
  w.type i = ST_BOUNDED ∨ (w.type i = ST_EQUALITY ∧ w.status i ≠ ST_INACTIVE) ∨
    (w.type i ≠ ST_BOUNDED ∧ w.type i ≠ ST_EQUALITY ∧ (w.status i = ST_LOWER → v i = l i ∧ 0 ≤ y i) ∧ (w.status i = ST_UPPER → v i = u i ∧ y i ≤ 0) ∧
      (w.status i = ST_INACTIVE → y i = 0 ∧ (obs i → (w.noLower = false → l i ≤ v i) ∧ (w.noUpper = false → v i ≤ u i))) ∧ l i ≤ u i)

theorem fixable (h : SideOK w obs v l u y n) : ∀ i < n, Fixable w obs v l u y i := by
  intro i hi
  by_cases hb : w.type i = ST_BOUNDED
  · exact Or.inl hb
  by_cases hq : w.type i = ST_EQUALITY
  · exact Or.inr (Or.inl ⟨hq, (h.eq i hi hq).1⟩)
  · exact Or.inr (Or.inr ⟨hb, hq, fun e => ⟨(h.lower i hi e).1, (h.lower i hi e).2 hq⟩, fun e => ⟨(h.upper i hi e).1, (h.upper i hi e).2 hq⟩,
      h.inactive i hi, h.box i hi⟩)

theorem Fixable.eq {i : Nat} (h : Fixable w obs v l u y i) (hq : w.type i = ST_EQUALITY) : w.status i ≠ ST_INACTIVE := by
  rcases h with h | h | h
  · rw [hq] at h; cases h
  · exact h.2
  · exact absurd hq h.2.1

theorem Fixable.other {i : Nat} (h : Fixable w obs v l u y i) (hb : w.type i ≠ ST_BOUNDED) (hq : w.type i ≠ ST_EQUALITY) :
    (w.status i = ST_LOWER → v i = l i ∧ 0 ≤ y i) ∧ (w.status i = ST_UPPER → v i = u i ∧ y i ≤ 0) ∧
      (w.status i = ST_INACTIVE → y i = 0 ∧ (obs i → (w.noLower = false → l i ≤ v i) ∧ (w.noUpper = false → v i ≤ u i))) ∧ l i ≤ u i := by
  rcases h with h | h | h
  · exact absurd h hb
  · exact absurd h.1 hq
  · exact h.2.2

/-- Drift correction repairs one side of the problem. -/
theorem drift (h : ∀ i < n, Fixable w obs v l u y i) (hw : w.OK) (hn : w.n = n) {v' l' u' y' : Nat → K}
    (hv : ∀ i < n, w.type i = ST_BOUNDED ∨ w.type i = ST_EQUALITY → v' i = v i)
    (hd : ∀ i < n, QPB.driftOne (w.type i) (w.getStatus i) (v' i) (l i) (u i) (y i) = (l' i, u' i, y' i)) : SideOK w obs v l' u' y' n := by
  have key : ∀ i < n, (w.status i = ST_LOWER → v i = l' i ∧ (w.type i ≠ ST_EQUALITY → 0 ≤ y' i)) ∧
      (w.status i = ST_UPPER → v i = u' i ∧ (w.type i ≠ ST_EQUALITY → y' i ≤ 0)) ∧
      (w.status i = ST_INACTIVE → y' i = 0 ∧ (obs i → (w.noLower = false → l' i ≤ v i) ∧ (w.noUpper = false → v i ≤ u' i))) ∧
      l' i ≤ u' i ∧ (w.type i = ST_EQUALITY → w.status i ≠ ST_INACTIVE ∧ l' i = u' i) := by
    intro i hi
    have e := hd i hi
    rw [WS.getStatus_of_lt (w := w) (by rw [hn]; exact hi)] at e
    by_cases hb : w.type i = ST_BOUNDED
    · have hne : w.type i ≠ ST_EQUALITY := by rw [hb]; decide
      rw [hv i hi (Or.inl hb), hb] at e
      rcases hw.status_cases (by rw [hn]; exact hi) with hs | hs | hs
      · rw [hs] at e
        simp only [QPB.driftOne, Prod.mk.injEq] at e
        obtain ⟨e1, e2, e3⟩ := e
        have h1 := getMin_le_right (l i) (v i)
        have h2 := le_getMax_right (u i) (v i)
        rw [e1] at h1
        rw [e2] at h2
        exact ⟨fun h => (by rw [hs] at h; cases h), fun h => (by rw [hs] at h; cases h), fun _ => ⟨e3.symm, fun _ => ⟨fun _ => h1, fun _ => h2⟩⟩,
          h1.trans h2, fun h => absurd h hne⟩
      · rw [hs] at e
        simp only [QPB.driftOne, Prod.mk.injEq] at e
        obtain ⟨e1, e2, e3⟩ := e
        have h2 := le_getMax_right (u i) (v i)
        have h3 := le_getMax_right (y i) 0
        rw [e2] at h2
        rw [e3] at h3
        exact ⟨fun _ => ⟨e1, fun _ => h3⟩, fun h => (by rw [hs] at h; cases h), fun h => (by rw [hs] at h; cases h), e1 ▸ h2,
          fun h => absurd h hne⟩
      · rw [hs] at e
        simp only [QPB.driftOne, Prod.mk.injEq] at e
        obtain ⟨e1, e2, e3⟩ := e
        have h2 := getMin_le_right (l i) (v i)
        have h3 := getMin_le_right (y i) 0
        rw [e1] at h2
        rw [e3] at h3
        exact ⟨fun h => (by rw [hs] at h; cases h), fun _ => ⟨e2, fun _ => h3⟩, fun h => (by rw [hs] at h; cases h), e2 ▸ h2,
          fun h => absurd h hne⟩
    · by_cases hq : w.type i = ST_EQUALITY
      · rw [hv i hi (Or.inr hq), hq] at e
        simp only [QPB.driftOne, Prod.mk.injEq] at e
        obtain ⟨e1, e2, e3⟩ := e
        exact ⟨fun _ => ⟨e1, fun h => absurd hq h⟩, fun _ => ⟨e2, fun h => absurd hq h⟩, fun h' => absurd h' ((h i hi).eq hq), by rw [← e1, ← e2],
          fun _ => ⟨(h i hi).eq hq, by rw [← e1, ← e2]⟩⟩
      · have e' : (l i, u i, y i) = (l' i, u' i, y' i) := by
          rw [← e]
          generalize w.type i = T at *
          cases T <;> first | rfl | exact absurd rfl hb | exact absurd rfl hq
        simp only [Prod.mk.injEq] at e'
        obtain ⟨e1, e2, e3⟩ := e'
        rw [← e1, ← e2, ← e3]
        obtain ⟨k1, k2, k3, k4⟩ := (h i hi).other hb hq
        exact ⟨fun e => ⟨(k1 e).1, fun _ => (k1 e).2⟩, fun e => ⟨(k2 e).1, fun _ => (k2 e).2⟩, k3, k4, fun e => absurd e hq⟩
  exact ⟨fun i hi => (key i hi).1, fun i hi => (key i hi).2.1, fun i hi => (key i hi).2.2.1, fun i hi => (key i hi).2.2.2.1,
    fun i hi => (key i hi).2.2.2.2⟩

end SideOK

/-- New limits and multiplier of one member after ramping -/
def Ramped (t : SubjectToType) (st : SubjectToStatus) (v l u y l' u' y' : K) : Prop :=
  match t with
  | ST_EQUALITY => l' = v ∧ u' = v ∧ y' = y
  | ST_BOUNDED => ∃ rP rD, 0 ≤ rP ∧ 0 ≤ rD ∧ QPC.rampOne st v l u y rP rD = (l', u', y')
  | _ => l' = l ∧ u' = u ∧ y' = y

namespace SideOK
variable {w : WS} {obs : Nat → Prop} {v l u y : Nat → K} {n : Nat}

theorem ramp (h : ∀ i < n, Fixable w obs v l u y i) (hw : w.OK) (hn : w.n = n) {v' l' u' y' : Nat → K}
    (hv : ∀ i < n, w.type i = ST_BOUNDED ∨ w.type i = ST_EQUALITY → v' i = v i)
    (hd : ∀ i < n, Ramped (w.type i) (w.getStatus i) (v' i) (l i) (u i) (y i) (l' i) (u' i) (y' i)) : SideOK w obs v l' u' y' n := by
  have key : ∀ i < n, (w.status i = ST_LOWER → v i = l' i ∧ (w.type i ≠ ST_EQUALITY → 0 ≤ y' i)) ∧
      (w.status i = ST_UPPER → v i = u' i ∧ (w.type i ≠ ST_EQUALITY → y' i ≤ 0)) ∧
      (w.status i = ST_INACTIVE → y' i = 0 ∧ (obs i → (w.noLower = false → l' i ≤ v i) ∧ (w.noUpper = false → v i ≤ u' i))) ∧
      l' i ≤ u' i ∧ (w.type i = ST_EQUALITY → w.status i ≠ ST_INACTIVE ∧ l' i = u' i) := by
    intro i hi
    have e := hd i hi
    rw [WS.getStatus_of_lt (w := w) (by rw [hn]; exact hi)] at e
    by_cases hb : w.type i = ST_BOUNDED
    · have hne : w.type i ≠ ST_EQUALITY := by rw [hb]; decide
      rw [hv i hi (Or.inl hb), hb] at e
      obtain ⟨rP, rD, p1, p2, e⟩ := e
      unfold QPC.rampOne at e
      simp only [Prod.mk.injEq] at e
      obtain ⟨e1, e2, e3⟩ := e
      have hsca : 0 ≤ getMax (getAbs (v i)) 1 * rP := mul_nonneg (le_trans zero_le_one (le_getMax_right _ _)) p1
      rcases hw.status_cases (by rw [hn]; exact hi) with hs | hs | hs
      · rw [hs] at e1 e2 e3
        simp only [reduceCtorEq, if_true, if_false] at e1 e2 e3
        have h1 : l' i ≤ v i := by rw [← e1]; linarith
        have h2 : v i ≤ u' i := by rw [← e2]; linarith
        exact ⟨fun h => (by rw [hs] at h; cases h), fun h => (by rw [hs] at h; cases h), fun _ => ⟨e3.symm, fun _ => ⟨fun _ => h1, fun _ => h2⟩⟩,
          h1.trans h2, fun h => absurd h hne⟩
      · rw [hs] at e1 e2 e3
        simp only [reduceCtorEq, if_true, if_false] at e1 e2 e3
        exact ⟨fun _ => ⟨e1, fun _ => e3 ▸ p2⟩, fun h => (by rw [hs] at h; cases h), fun h => (by rw [hs] at h; cases h),
          by rw [← e1, ← e2]; linarith, fun h => absurd h hne⟩
      · rw [hs] at e1 e2 e3
        simp only [reduceCtorEq, if_true, if_false] at e1 e2 e3
        exact ⟨fun h => (by rw [hs] at h; cases h), fun _ => ⟨e2, fun _ => by rw [← e3]; linarith⟩, fun h => (by rw [hs] at h; cases h),
          by rw [← e1, ← e2]; linarith, fun h => absurd h hne⟩
    · by_cases hq : w.type i = ST_EQUALITY
      · rw [hv i hi (Or.inr hq), hq] at e
        obtain ⟨e1, e2, e3⟩ := e
        exact ⟨fun _ => ⟨e1.symm, fun h => absurd hq h⟩, fun _ => ⟨e2.symm, fun h => absurd hq h⟩, fun h' => absurd h' ((h i hi).eq hq),
          by rw [e1, e2], fun _ => ⟨(h i hi).eq hq, by rw [e1, e2]⟩⟩
      · have e' : l' i = l i ∧ u' i = u i ∧ y' i = y i := by
          generalize w.type i = T at *
          cases T <;> first | exact e | exact absurd rfl hb | exact absurd rfl hq
        obtain ⟨e1, e2, e3⟩ := e'
        rw [e1, e2, e3]
        obtain ⟨k1, k2, k3, k4⟩ := (h i hi).other hb hq
        exact ⟨fun e => ⟨(k1 e).1, fun _ => (k1 e).2⟩, fun e => ⟨(k2 e).1, fun _ => (k2 e).2⟩, k3, k4, fun e => absurd e hq⟩
  exact ⟨fun i hi => (key i hi).1, fun i hi => (key i hi).2.1, fun i hi => (key i hi).2.2.1, fun i hi => (key i hi).2.2.2.1,
    fun i hi => (key i hi).2.2.2.2⟩

end SideOK

namespace QPC

/-! ### gradient -/

theorem Facs.hasH {s : QPC K} (h : s.Facs) : ¬ s.scalarH → s.H ≠ none := by
  intro hs
  obtain ⟨H, e, _⟩ := h.chol (general_iff.2 hs)
  rw [e]; exact Option.some_ne_none _

theorem setupAuxiliaryQPgradient_spec {s : QPC K} (hH : ¬ s.scalarH → s.H ≠ none) :
    ∃ g', setupAuxiliaryQPgradient s = .ok { s with g := g' } ∧
      ∀ i < s.nV, ∑ j ∈ range s.nV, s.Heff i j * s.x j + g' i = s.y i + ∑ k ∈ range s.nC, s.A k i * s.y (s.nV + k) := by
  obtain ⟨g', e, h⟩ := QPB.setupAuxiliaryQPgradient_spec (s := s.toQPB) hH
  unfold setupAuxiliaryQPgradient
  rw [e]
  refine ⟨_, rfl, fun i hi => ?_⟩
  have := h i hi
  rw [sumTo_eq]
  linear_combination this

/-- New limits and multipliers, with the gradient recomputed. -/
theorem Opt.regrad {s s1 s' : QPC K} (hH : ¬ s.scalarH → s.H ≠ none) (hax : s.AxOK) {l u y lA uA al au : Nat → K}
    (e1 : s1 = { s with lb := l, ub := u, y := y, lbA := lA, ubA := uA, Axl := al, Axu := au })
    (hb : SideOK s.bounds (fun _ => True) s.x l u y s.nV)
    (hc : SideOK s.cons (fun i => s.cons.type i ≠ ST_UNBOUNDED) (s.prodA s.x) lA uA (fun k => y (s.nV + k)) s.nC)
    (ha : ∀ i < s.nC, s.cons.type i ≠ ST_UNBOUNDED → al i = s.prodA s.x i - lA i ∧ au i = uA i - s.prodA s.x i)
    (e : setupAuxiliaryQPgradient s1 = .ok s') : s'.Opt ∧ s'.AxOK ∧ ∃ g, s' = { s1 with g := g } := by
  subst e1
  obtain ⟨g', e', hg⟩ := setupAuxiliaryQPgradient_spec (s := { s with lb := l, ub := u, y := y, lbA := lA, ubA := uA, Axl := al, Axu := au }) hH
  rw [e'] at e
  simp only [Res.ok.injEq] at e
  subst e
  exact ⟨⟨hg, hb, hc⟩, fun i hi ht => ⟨(hax i hi ht).1, ha i hi ht⟩, _, rfl⟩

theorem Good.regrad {s s1 s' : QPC K} (h : s.Good) {l u y lA uA al au : Nat → K}
    (e1 : s1 = { s with lb := l, ub := u, y := y, lbA := lA, ubA := uA, Axl := al, Axu := au })
    (hb : SideOK s.bounds (fun _ => True) s.x l u y s.nV)
    (hc : SideOK s.cons (fun i => s.cons.type i ≠ ST_UNBOUNDED) (s.prodA s.x) lA uA (fun k => y (s.nV + k)) s.nC)
    (ha : ∀ i < s.nC, s.cons.type i ≠ ST_UNBOUNDED → al i = s.prodA s.x i - lA i ∧ au i = uA i - s.prodA s.x i)
    (e : setupAuxiliaryQPgradient s1 = .ok s') : s'.Good ∧ Same s' s ∧ ∃ g, s' = { s1 with g := g } := by
  obtain ⟨k1, k2, g, k3⟩ := Opt.regrad h.facs.hasH h.ax e1 hb hc ha e
  subst k3
  subst e1
  exact ⟨⟨h.facs.congr rfl rfl rfl rfl rfl rfl rfl rfl rfl rfl id, k1, k2⟩,
    ⟨rfl, rfl, rfl, rfl, rfl, rfl, rfl, rfl, rfl, rfl, rfl, rfl, rfl, rfl, rfl⟩, _, rfl⟩

/-- Members that the invariant does not mention. -/
theorem Good.frame {s s' : QPC K} (h : s.Good) (tau : K) (inf unb : Bool) (st : QProblemStatus) (count off now : Nat) (hc : Bool)
    (e : s' = { s with tau := tau, infeasible := inf, unbounded := unb, status := st, count := count, rampOffset := off, now := now,
                       haveCholesky := hc }) : s'.Good := by
  subst e
  exact ⟨h.facs.congr rfl rfl rfl rfl rfl rfl rfl rfl rfl rfl id, ⟨h.opt.stat, h.opt.bounds, h.opt.cons⟩, h.ax⟩

theorem performDriftCorrection_spec {s s' : QPC K} (h : s.Good) (e : performDriftCorrection s = .ok s') : s'.Good ∧ Same s' s := by
  unfold performDriftCorrection at e
  dsimp only at e
  have hs := h.facs.shape
  suffices hh : _ ∧ _ ∧ _ by
    obtain ⟨g1, g2, _⟩ := h.regrad rfl hh.1 hh.2.1 hh.2.2 e
    exact ⟨g1, g2⟩
  refine ⟨?_, ?_, ?_⟩
  · refine SideOK.drift h.opt.bounds.fixable hs.okB hs.nB (v' := s.x) (fun _ _ _ => rfl) (fun i hi => ?_)
    rw [if_pos hi, if_pos hi, if_pos hi]
  · refine SideOK.drift h.opt.cons.fixable hs.okC hs.nC (v' := s.Ax) (fun i hi ht => (h.ax i hi ?_).1) (fun i hi => ?_)
    · rcases ht with ht | ht <;> rw [ht] <;> decide
    · rw [if_pos hi, if_pos hi, if_neg (by omega), Nat.add_sub_cancel_left, if_pos hi]
  · intro i hi ht
    rw [if_pos hi, if_pos hi, if_pos hi, if_pos hi]
    obtain ⟨a1, a2, a3⟩ := h.ax i hi ht
    have hst : s.cons.getStatus i = s.cons.status i := WS.getStatus_of_lt (by rw [hs.nC]; exact hi)
    have hcases := hs.okC.status_cases (by rw [hs.nC]; exact hi)
    rw [hst]
    rw [← a1]
    generalize hT : s.cons.type i = T at *
    cases T
    case ST_BOUNDED =>
      rcases hcases with hs | hs | hs <;> rw [hs] <;> simp only [driftAxl, driftAxu, QPB.driftOne, sub_self, and_self]
    case ST_EQUALITY => simp only [driftAxl, driftAxu, QPB.driftOne, sub_self, and_self]
    case ST_UNBOUNDED => exact absurd rfl ht
    all_goals exact ⟨by rw [a1]; exact a2, by rw [a1]; exact a3⟩

/-- Drift correction of any state: the repaired iterate is optimal for the repaired data. -/
theorem performDriftCorrection_opt {s s' : QPC K} (hs : s.Shape) (hH : ¬ s.scalarH → s.H ≠ none)
    (hb : ∀ i < s.nV, SideOK.Fixable s.bounds (fun _ => True) s.x s.lb s.ub s.y i)
    (hc : ∀ i < s.nC, SideOK.Fixable s.cons (fun i => s.cons.type i ≠ ST_UNBOUNDED) (s.prodA s.x) s.lbA s.ubA (fun k => s.y (s.nV + k)) i)
    (hax : ∀ i < s.nC, s.cons.type i = ST_BOUNDED ∨ s.cons.type i = ST_EQUALITY → s.Ax i = s.prodA s.x i)
    (e : performDriftCorrection s = .ok s') :
    s'.Opt ∧ ∃ l u y lA uA al au g, s' = { s with lb := l, ub := u, y := y, lbA := lA, ubA := uA, Axl := al, Axu := au, g := g } := by
  unfold performDriftCorrection at e
  dsimp only at e
  generalize hq : ({ s with lb := _, ub := _, y := _, lbA := _, ubA := _, Axl := _, Axu := _ } : QPC K) = q at e
  obtain ⟨g', e', hg⟩ := setupAuxiliaryQPgradient_spec (s := q) (by subst hq; exact hH)
  rw [e'] at e
  simp only [Res.ok.injEq] at e
  subst e
  subst hq
  refine ⟨⟨hg, ?_, ?_⟩, _, _, _, _, _, _, _, _, rfl⟩
  · refine SideOK.drift hb hs.okB hs.nB (v' := s.x) (fun _ _ _ => rfl) (fun i hi => ?_)
    dsimp only
    rw [if_pos hi, if_pos hi, if_pos hi]
  · refine SideOK.drift hc hs.okC hs.nC (v' := s.Ax) (fun i hi ht => hax i hi ht) (fun i hi => ?_)
    dsimp only
    rw [if_pos hi, if_pos hi, if_neg (by omega), Nat.add_sub_cancel_left, if_pos hi]

/-! ### ramping -/

theorem rampVal_nonneg {s : QPB K} {i n : Nat} {v : K} (hn : 2 ≤ n) (h0 : 0 ≤ s.ramp0) (h1 : 0 ≤ s.ramp1) (h : s.rampVal i n = .ok v) : 0 ≤ v := by
  obtain ⟨w, e, hw, _⟩ := QPB.rampVal_spec hn h0 h1 i
  rw [e] at h
  simp only [Res.ok.injEq] at h
  exact h ▸ hw

theorem rampB_spec : ∀ (m i : Nat) {s s' : QPC K}, i + m ≤ s.nV → 0 ≤ s.ramp0 → 0 ≤ s.ramp1 → rampB m i s = .ok s' →
    ∃ l u y, s' = { s with lb := l, ub := u, y := y } ∧
      (∀ j, j < i ∨ i + m ≤ j → l j = s.lb j ∧ u j = s.ub j ∧ y j = s.y j) ∧
      ∀ j, i ≤ j → j < i + m → Ramped (s.bounds.type j) (s.bounds.getStatus j) (s.x j) (s.lb j) (s.ub j) (s.y j) (l j) (u j) (y j) := by
  intro m
  induction m with
  | zero =>
    intro i s s' hi _ _ h
    simp only [rampB, Res.ok.injEq] at h
    exact ⟨s.lb, s.ub, s.y, h.symm, fun _ _ => ⟨rfl, rfl, rfl⟩, fun j h1 h2 => by omega⟩
  | succ m ih =>
    intro i s s' hi h0 h1 h
    have step : ∀ (a b c : K), rampB m (i+1) { s with lb := updA s.lb i a, ub := updA s.ub i b, y := updA s.y i c } = .ok s' →
        Ramped (s.bounds.type i) (s.bounds.getStatus i) (s.x i) (s.lb i) (s.ub i) (s.y i) a b c →
        ∃ l u y, s' = { s with lb := l, ub := u, y := y } ∧
          (∀ j, j < i ∨ i + (m+1) ≤ j → l j = s.lb j ∧ u j = s.ub j ∧ y j = s.y j) ∧
          ∀ j, i ≤ j → j < i + (m+1) → Ramped (s.bounds.type j) (s.bounds.getStatus j) (s.x j) (s.lb j) (s.ub j) (s.y j) (l j) (u j) (y j) := by
      intro a b c h hr
      obtain ⟨l, u, y, e, k1, k2⟩ := ih (i+1) (s := { s with lb := updA s.lb i a, ub := updA s.ub i b, y := updA s.y i c })
        (show i + 1 + m ≤ s.nV by omega) h0 h1 h
      dsimp only at k1 k2
      refine ⟨l, u, y, e, fun j hj => ?_, fun j h1 h2 => ?_⟩
      · obtain ⟨r1, r2, r3⟩ := k1 j (by omega)
        have hne : j ≠ i := by omega
        exact ⟨r1.trans (updA_ne _ _ hne), r2.trans (updA_ne _ _ hne), r3.trans (updA_ne _ _ hne)⟩
      · by_cases e : j = i
        · subst e
          obtain ⟨r1, r2, r3⟩ := k1 j (by omega)
          rw [r1, r2, r3, updA_same, updA_same, updA_same]
          exact hr
        · have := k2 j (by omega) (by omega)
          rw [updA_ne _ _ e, updA_ne _ _ e, updA_ne _ _ e] at this
          exact this
    have same : rampB m (i+1) s = .ok s' → s.bounds.type i ≠ ST_EQUALITY → s.bounds.type i ≠ ST_BOUNDED → _ := fun h n1 n2 =>
      step (s.lb i) (s.ub i) (s.y i) (by rw [updA_self rfl, updA_self rfl, updA_self rfl]; exact h) (by
        generalize s.bounds.type i = T at *
        cases T <;> first | exact ⟨rfl, rfl, rfl⟩ | exact absurd rfl n1 | exact absurd rfl n2)
    rw [rampB] at h
    dsimp only at h
    split at h
    · next ht =>
      refine step (s.x i) (s.x i) (s.y i) (by rw [updA_self (v := s.y) rfl]; exact h) ?_
      rw [ht]
      exact ⟨rfl, rfl, rfl⟩
    · next ht =>
      rw [Res.bind_eq_ok] at h
      obtain ⟨rP, e1, h⟩ := h
      rw [Res.bind_eq_ok] at h
      obtain ⟨rD, e2, h⟩ := h
      have hn : 2 ≤ 2 * s.nV + 2 * s.nC := by omega
      refine step _ _ _ h ?_
      rw [ht]
      exact ⟨rP, rD, rampVal_nonneg hn h0 h1 e1, rampVal_nonneg hn h0 h1 e2, rfl⟩
    · next n1 n2 => exact same h n1 n2

theorem rampC_spec : ∀ (m i : Nat) {s s' : QPC K}, i + m ≤ s.nC → 0 ≤ s.ramp0 → 0 ≤ s.ramp1 → rampC m i s = .ok s' →
    ∃ l u y al au, s' = { s with lbA := l, ubA := u, y := y, Axl := al, Axu := au } ∧ (∀ j < s.nV, y j = s.y j) ∧
      (∀ j, j < i ∨ i + m ≤ j → l j = s.lbA j ∧ u j = s.ubA j ∧ y (s.nV + j) = s.y (s.nV + j) ∧ al j = s.Axl j ∧ au j = s.Axu j) ∧
      ∀ j, i ≤ j → j < i + m → Ramped (s.cons.type j) (s.cons.getStatus j) (s.Ax j) (s.lbA j) (s.ubA j) (s.y (s.nV + j)) (l j) (u j) (y (s.nV + j)) ∧
        (s.cons.type j = ST_BOUNDED → al j = s.Ax j - l j ∧ au j = u j - s.Ax j) ∧
        (s.cons.type j ≠ ST_BOUNDED → al j = s.Axl j ∧ au j = s.Axu j) := by
  intro m
  induction m with
  | zero =>
    intro i s s' hi _ _ h
    simp only [rampC, Res.ok.injEq] at h
    exact ⟨s.lbA, s.ubA, s.y, s.Axl, s.Axu, h.symm, fun _ _ => rfl, fun _ _ => ⟨rfl, rfl, rfl, rfl, rfl⟩, fun j h1 h2 => by omega⟩
  | succ m ih =>
    intro i s s' hi h0 h1 h
    have step : ∀ (a b c p q : K), rampC m (i+1) { s with lbA := updA s.lbA i a, ubA := updA s.ubA i b, y := updA s.y (s.nV + i) c, Axl := updA s.Axl i p, Axu := updA s.Axu i q } = .ok s' →
        (Ramped (s.cons.type i) (s.cons.getStatus i) (s.Ax i) (s.lbA i) (s.ubA i) (s.y (s.nV + i)) a b c ∧
          (s.cons.type i = ST_BOUNDED → p = s.Ax i - a ∧ q = b - s.Ax i) ∧ (s.cons.type i ≠ ST_BOUNDED → p = s.Axl i ∧ q = s.Axu i)) →
        ∃ l u y al au, s' = { s with lbA := l, ubA := u, y := y, Axl := al, Axu := au } ∧ (∀ j < s.nV, y j = s.y j) ∧
          (∀ j, j < i ∨ i + (m+1) ≤ j → l j = s.lbA j ∧ u j = s.ubA j ∧ y (s.nV + j) = s.y (s.nV + j) ∧ al j = s.Axl j ∧ au j = s.Axu j) ∧
          ∀ j, i ≤ j → j < i + (m+1) →
            Ramped (s.cons.type j) (s.cons.getStatus j) (s.Ax j) (s.lbA j) (s.ubA j) (s.y (s.nV + j)) (l j) (u j) (y (s.nV + j)) ∧
            (s.cons.type j = ST_BOUNDED → al j = s.Ax j - l j ∧ au j = u j - s.Ax j) ∧
            (s.cons.type j ≠ ST_BOUNDED → al j = s.Axl j ∧ au j = s.Axu j) := by
      intro a b c p q h hr
      obtain ⟨l, u, y, al, au, e, k0, k1, k2⟩ := ih (i+1) (s := { s with lbA := updA s.lbA i a, ubA := updA s.ubA i b, y := updA s.y (s.nV + i) c, Axl := updA s.Axl i p, Axu := updA s.Axu i q }) (show i + 1 + m ≤ s.nC by omega) h0 h1 h
      dsimp only at k0 k1 k2
      refine ⟨l, u, y, al, au, e, fun j hj => (k0 j hj).trans (updA_ne _ _ (by omega)), fun j hj => ?_, fun j h1 h2 => ?_⟩
      · obtain ⟨r1, r2, r3, r4, r5⟩ := k1 j (by omega)
        have hne : j ≠ i := by omega
        exact ⟨r1.trans (updA_ne _ _ hne), r2.trans (updA_ne _ _ hne), r3.trans (updA_ne _ _ (by omega)), r4.trans (updA_ne _ _ hne),
          r5.trans (updA_ne _ _ hne)⟩
      · by_cases e : j = i
        · subst e
          obtain ⟨r1, r2, r3, r4, r5⟩ := k1 j (by omega)
          rw [r1, r2, r3, r4, r5, updA_same, updA_same, updA_same, updA_same, updA_same]
          exact hr
        · have := k2 j (by omega) (by omega)
          rw [updA_ne _ _ e, updA_ne _ _ e, updA_ne _ _ (show s.nV + j ≠ s.nV + i by omega), updA_ne _ _ e, updA_ne _ _ e] at this
          exact this
    rw [rampC] at h
    dsimp only at h
    split at h
    · next ht =>
      refine step (s.Ax i) (s.Ax i) (s.y (s.nV + i)) (s.Axl i) (s.Axu i)
        (by rw [updA_self (v := s.y) rfl, updA_self (v := s.Axl) rfl, updA_self (v := s.Axu) rfl]; exact h) ?_
      rw [ht]
      exact ⟨⟨rfl, rfl, rfl⟩, fun h => (by cases h), fun _ => ⟨rfl, rfl⟩⟩
    · next ht =>
      rw [Res.bind_eq_ok] at h
      obtain ⟨rP, e1, h⟩ := h
      rw [Res.bind_eq_ok] at h
      obtain ⟨rD, e2, h⟩ := h
      have hn : 2 ≤ 2 * s.nV + 2 * s.nC := by omega
      refine step _ _ _ _ _ h ?_
      rw [ht]
      exact ⟨⟨rP, rD, rampVal_nonneg hn h0 h1 e1, rampVal_nonneg hn h0 h1 e2, rfl⟩, fun _ => ⟨rfl, rfl⟩, fun h => absurd rfl h⟩
    · next n1 n2 =>
      refine step (s.lbA i) (s.ubA i) (s.y (s.nV + i)) (s.Axl i) (s.Axu i)
        (by rw [updA_self (v := s.lbA) rfl, updA_self (v := s.ubA) rfl, updA_self (v := s.y) rfl, updA_self (v := s.Axl) rfl,
              updA_self (v := s.Axu) rfl]; exact h) ?_
      generalize s.cons.type i = T at *
      refine ⟨?_, fun h => absurd h n2, fun _ => ⟨rfl, rfl⟩⟩
      cases T <;> first | exact ⟨rfl, rfl, rfl⟩ | exact absurd rfl n1 | exact absurd rfl n2

/-- Ramping of any state: the ramped iterate is optimal for the ramped data. -/
theorem performRamping_opt {s s' : QPC K} (hs : s.Shape) (hH : ¬ s.scalarH → s.H ≠ none)
    (hb : ∀ i < s.nV, SideOK.Fixable s.bounds (fun _ => True) s.x s.lb s.ub s.y i)
    (hc : ∀ i < s.nC, SideOK.Fixable s.cons (fun i => s.cons.type i ≠ ST_UNBOUNDED) (s.prodA s.x) s.lbA s.ubA (fun k => s.y (s.nV + k)) i)
    (hax : ∀ i < s.nC, s.cons.type i = ST_BOUNDED ∨ s.cons.type i = ST_EQUALITY → s.Ax i = s.prodA s.x i) (h0 : 0 ≤ s.ramp0)
    (h1 : 0 ≤ s.ramp1) (e : performRamping s = .ok s') : s'.Opt ∧ ∃ l u y lA uA al au g off,
      s' = { s with lb := l, ub := u, y := y, lbA := lA, ubA := uA, Axl := al, Axu := au, g := g, rampOffset := off } := by
  unfold performRamping at e
  rw [Res.bind_eq_ok] at e
  obtain ⟨s1, e1, e⟩ := e
  rw [Res.bind_eq_ok] at e
  obtain ⟨s2, e2, e⟩ := e
  rw [Res.bind_eq_ok] at e
  obtain ⟨s3, e3, e⟩ := e
  obtain ⟨l, u, y, f1, a1, a2⟩ := rampB_spec s.nV 0 (by omega) h0 h1 e1
  subst f1
  obtain ⟨lA, uA, y', al, au, f2, b0, b1, b2⟩ := rampC_spec _ 0 (by simp) (by exact h0) (by exact h1) e2
  dsimp only at b0 b1 b2
  have hyB : ∀ i < s.nV, y' i = y i := b0
  have hyC : ∀ i, y (s.nV + i) = s.y (s.nV + i) := fun i => (a1 (s.nV + i) (by omega)).2.2
  subst f2
  obtain ⟨g', e', hg⟩ := setupAuxiliaryQPgradient_spec
    (s := { s with lb := l, ub := u, y := y', lbA := lA, ubA := uA, Axl := al, Axu := au }) hH
  rw [show setupAuxiliaryQPgradient _ = _ from e'] at e3
  simp only [Res.ok.injEq] at e3 e
  subst e3
  subst e
  refine ⟨⟨hg, ?_, ?_⟩, _, _, _, _, _, _, _, _, _, rfl⟩
  · refine SideOK.ramp hb hs.okB hs.nB (v' := s.x) (fun _ _ _ => rfl) (fun i hi => ?_)
    show Ramped _ _ _ _ _ _ _ _ (y' i)
    rw [hyB i hi]
    exact a2 i (by omega) (by omega)
  · refine SideOK.ramp hc hs.okC hs.nC (v' := s.Ax) (fun i hi ht => hax i hi ht) (fun i hi => ?_)
    have := (b2 i (by omega) (by omega)).1
    rw [hyC] at this
    exact this

theorem performRamping_pre {s s' : QPC K} (hs : s.Shape) (hH : ¬ s.scalarH → s.H ≠ none) (ho : s.Opt) (hax : s.AxOK) (h0 : 0 ≤ s.ramp0)
    (h1 : 0 ≤ s.ramp1) (e : performRamping s = .ok s') : s'.Opt ∧ s'.AxOK ∧ ∃ l u y lA uA al au g off,
      s' = { s with lb := l, ub := u, y := y, lbA := lA, ubA := uA, Axl := al, Axu := au, g := g, rampOffset := off } := by
  unfold performRamping at e
  rw [Res.bind_eq_ok] at e
  obtain ⟨s1, e1, e⟩ := e
  rw [Res.bind_eq_ok] at e
  obtain ⟨s2, e2, e⟩ := e
  rw [Res.bind_eq_ok] at e
  obtain ⟨s3, e3, e⟩ := e
  obtain ⟨l, u, y, f1, a1, a2⟩ := rampB_spec s.nV 0 (by omega) h0 h1 e1
  subst f1
  obtain ⟨lA, uA, y', al, au, f2, b0, b1, b2⟩ := rampC_spec _ 0 (by simp) (by exact h0) (by exact h1) e2
  dsimp only at b0 b1 b2
  have hyB : ∀ i < s.nV, y' i = y i := b0
  have hyC : ∀ i, y (s.nV + i) = s.y (s.nV + i) := fun i => (a1 (s.nV + i) (by omega)).2.2
  suffices hh : _ ∧ _ ∧ _ by
    obtain ⟨g1, g2, g, eg⟩ := Opt.regrad hH hax f2 hh.1 hh.2.1 hh.2.2 e3
    simp only [Res.ok.injEq] at e
    subst e
    subst eg
    subst f2
    exact ⟨⟨g1.stat, g1.bounds, g1.cons⟩, g2, _, _, _, _, _, _, _, _, _, rfl⟩
  refine ⟨?_, ?_, ?_⟩
  · refine SideOK.ramp ho.bounds.fixable hs.okB hs.nB (v' := s.x) (fun _ _ _ => rfl) (fun i hi => ?_)
    rw [hyB i hi]
    exact a2 i (by omega) (by omega)
  · refine SideOK.ramp ho.cons.fixable hs.okC hs.nC (v' := s.Ax) (fun i hi ht => (hax i hi ?_).1) (fun i hi => ?_)
    · rcases ht with ht | ht <;> rw [ht] <;> decide
    · have := (b2 i (by omega) (by omega)).1
      rw [hyC] at this
      exact this
  · intro i hi ht
    obtain ⟨c1, c2, c3⟩ := b2 i (by omega) (by omega)
    obtain ⟨x1, x2, x3⟩ := hax i hi ht
    rw [← x1]
    by_cases hb : s.cons.type i = ST_BOUNDED
    · exact c2 hb
    · obtain ⟨d1, d2⟩ := c3 hb
      rw [d1, d2]
      by_cases hq : s.cons.type i = ST_EQUALITY
      · rw [hq] at c1
        obtain ⟨z1, z2, -⟩ := c1
        rw [z1, z2, sub_self]
        have hst := (ho.cons.eq i hi hq)
        have hv : s.prodA s.x i = s.lbA i := by
          rcases hs.okC.status_cases (by rw [hs.nC]; exact hi) with hc | hc | hc
          · exact absurd hc hst.1
          · exact (ho.cons.lower i hi hc).1
          · rw [hst.2]; exact (ho.cons.upper i hi hc).1
        rw [x2, x3, ← hst.2, hv]
        exact ⟨sub_self _, sub_self _⟩
      · have e' : lA i = s.lbA i ∧ uA i = s.ubA i := by
          generalize s.cons.type i = T at *
          cases T <;> first | exact ⟨c1.1, c1.2.1⟩ | exact absurd rfl hb | exact absurd rfl hq
        rw [e'.1, e'.2, x1]
        exact ⟨x2, x3⟩

theorem performRamping_spec {s s' : QPC K} (h : s.Good) (h0 : 0 ≤ s.ramp0) (h1 : 0 ≤ s.ramp1) (e : performRamping s = .ok s') :
    s'.Good ∧ Same s' s := by
  obtain ⟨k1, k2, l, u, y, lA, uA, al, au, g, off, rfl⟩ := performRamping_pre h.facs.shape h.facs.hasH h.opt h.ax h0 h1 e
  exact ⟨⟨h.facs.congr rfl rfl rfl rfl rfl rfl rfl rfl rfl rfl id, k1, k2⟩,
    ⟨rfl, rfl, rfl, rfl, rfl, rfl, rfl, rfl, rfl, rfl, rfl, rfl, rfl, rfl, rfl⟩⟩

end QPC
end QpOASES
