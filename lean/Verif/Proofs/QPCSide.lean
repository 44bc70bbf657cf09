import Verif.Proofs.QPCStep
import Verif.Proofs.QPBOpt

/-!
Optimality of the iterate of the solver for general constraints, and a homotopy step.
-/
namespace QpOASES
open Finset Props SubjectToStatus SubjectToType ReturnValue HessianType
open QPB (sg DenOK sg_sub sg_ne nonneg_shorten ratioTest_spec getMax_nonneg getMax_of_nonneg)

set_option linter.unusedSectionVars false

variable {K : Type} [Field K] [LinearOrder K] [IsStrictOrderedRing K]

/-! ### one side: bounds or constraints -/

/-- Primal and dual feasibility and complementarity of the members of a working set: values `v`, limits `l`, `u`, multipliers `y`.
The limits of inactive members are observed only where `obs` holds. -/
structure SideOK (w : WS) (obs : Nat → Prop) (v l u y : Nat → K) (n : Nat) : Prop where
  lower : ∀ i < n, w.status i = ST_LOWER → v i = l i ∧ (w.type i ≠ ST_EQUALITY → 0 ≤ y i)
  upper : ∀ i < n, w.status i = ST_UPPER → v i = u i ∧ (w.type i ≠ ST_EQUALITY → y i ≤ 0)
  inactive : ∀ i < n, w.status i = ST_INACTIVE → y i = 0 ∧ (obs i → (w.noLower = false → l i ≤ v i) ∧ (w.noUpper = false → v i ≤ u i))
  box : ∀ i < n, l i ≤ u i
  eq : ∀ i < n, w.type i = ST_EQUALITY → w.status i ≠ ST_INACTIVE ∧ l i = u i

namespace SideOK
variable {w : WS} {obs : Nat → Prop} {v l u y : Nat → K} {n : Nat}

theorem sign (h : SideOK w obs v l u y n) (hw : w.OK) (hn : w.n = n) :
    ∀ k < w.nFX, w.type (w.fx k) ≠ ST_EQUALITY → 0 ≤ sg w (w.fx k) (y (w.fx k)) := by
  intro k hk hty
  have hlt : w.fx k < n := by rw [← hn]; exact hw.fx_lt hk
  rcases hw.fixed _ (WS.fx_mem hk) with h1 | h1
  · rw [sg_ne (by rw [h1]; decide)]
    exact (h.lower _ hlt h1).2 hty
  · unfold sg
    rw [if_pos h1]
    exact neg_nonneg.2 ((h.upper _ hlt h1).2 hty)

theorem congr (h : SideOK w obs v l u y n) {v' l' u' y' : Nat → K} (hv : ∀ i < n, v' i = v i) (hl : ∀ i < n, l' i = l i)
    (hu : ∀ i < n, u' i = u i) (hy : ∀ i < n, y' i = y i) : SideOK w obs v' l' u' y' n := by
  refine ⟨fun i hi hs => ?_, fun i hi hs => ?_, fun i hi hs => ?_, fun i hi => ?_, fun i hi ht => ?_⟩
  · rw [hv i hi, hl i hi, hy i hi]; exact h.lower i hi hs
  · rw [hv i hi, hu i hi, hy i hi]; exact h.upper i hi hs
  · rw [hv i hi, hl i hi, hu i hi, hy i hi]; exact h.inactive i hi hs
  · rw [hl i hi, hu i hi]; exact h.box i hi
  · rw [hl i hi, hu i hi]; exact h.eq i hi ht

/-- A step keeps one side in order. -/
theorem step (h : SideOK w obs v l u y n) (hw : w.OK) (hn : w.n = n) {dv dy lN uN v' l' u' y' : Nat → K} {tau : K} (h0 : 0 ≤ tau) (h1 : tau ≤ 1)
    (hact : ∀ i ∈ w.fixed, dv i = if w.status i = ST_LOWER then lN i - l i else uN i - u i) (hfree : ∀ i ∈ w.free, dy i = 0)
    (hsign : ∀ i ∈ w.fixed, w.type i ≠ ST_EQUALITY → 0 ≤ sg w i (y i + tau * dy i))
    (hlo : w.noLower = false → ∀ i ∈ w.free, obs i → w.type i ≠ ST_EQUALITY → tau * (lN i - l i - dv i) ≤ v i - l i)
    (hup : w.noUpper = false → ∀ i ∈ w.free, obs i → w.type i ≠ ST_EQUALITY → tau * (dv i - (uN i - u i)) ≤ u i - v i)
    (hbox : ∀ i < n, lN i ≤ uN i) (heq : ∀ i < n, w.type i = ST_EQUALITY → lN i = uN i)
    (ev : ∀ i < n, v' i = v i + tau * dv i) (el : ∀ i < n, l' i = l i + tau * (lN i - l i)) (eu : ∀ i < n, u' i = u i + tau * (uN i - u i))
    (ey : ∀ i < n, y' i = y i + tau * dy i) : SideOK w obs v' l' u' y' n := by
  have hmemF : ∀ i < n, w.status i = ST_LOWER ∨ w.status i = ST_UPPER → i ∈ w.fixed :=
    fun i hi hst => hw.mem_fixed_iff.2 ⟨by rw [hn]; exact hi, hst⟩
  refine ⟨fun i hi hst => ?_, fun i hi hst => ?_, fun i hi hst => ?_, fun i hi => ?_, fun i hi hty => ?_⟩
  · have hm := hmemF i hi (Or.inl hst)
    refine ⟨?_, fun hty => ?_⟩
    · rw [ev i hi, el i hi, hact i hm, if_pos hst, (h.lower i hi hst).1]
    · have := hsign i hm hty
      rw [sg_ne (by rw [hst]; decide)] at this
      rw [ey i hi]; exact this
  · have hm := hmemF i hi (Or.inr hst)
    refine ⟨?_, fun hty => ?_⟩
    · rw [ev i hi, eu i hi, hact i hm, if_neg (by rw [hst]; decide), (h.upper i hi hst).1]
    · have := hsign i hm hty
      unfold sg at this
      rw [if_pos hst] at this
      rw [ey i hi]; linarith
  · have hm : i ∈ w.free := hw.mem_free_iff.2 ⟨by rw [hn]; exact hi, hst⟩
    have hty : w.type i ≠ ST_EQUALITY := fun e => (h.eq i hi e).1 hst
    refine ⟨?_, fun ho => ⟨fun hl => ?_, fun hu => ?_⟩⟩
    · rw [ey i hi, hfree i hm, (h.inactive i hi hst).1]; ring
    · have := hlo hl i hm ho hty
      rw [ev i hi, el i hi]
      linarith [mul_sub tau (lN i - l i) (dv i)]
    · have := hup hu i hm ho hty
      rw [ev i hi, eu i hi]
      linarith [mul_sub tau (dv i) (uN i - u i)]
  · rw [el i hi, eu i hi]
    have e1 := mul_le_mul_of_nonneg_left (hbox i hi) h0
    have e2 := mul_le_mul_of_nonneg_left (h.box i hi) (sub_nonneg.2 h1)
    linarith [mul_sub tau (lN i) (l i), mul_sub tau (uN i) (u i), sub_mul 1 tau (l i), sub_mul 1 tau (u i)]
  · refine ⟨(h.eq i hi hty).1, ?_⟩
    rw [el i hi, eu i hi, (h.eq i hi hty).2, heq i hi hty]

/-- A member with multiplier zero leaves. -/
theorem remove (h : SideOK w obs v l u y n) (hw : w.OK) (hn : w.n = n) {k : Nat} (hk : k ∈ w.fixed) (hty : w.type k ≠ ST_EQUALITY) {y' : Nat → K}
    (hyk : y' k = 0) (hy : ∀ i < n, i ≠ k → y' i = y i) : SideOK (w.moveFixedToFree k) obs v l u y' n := by
  have hstatk : (w.moveFixedToFree k).status k = ST_INACTIVE := updA_same _ _ _
  have hstatne : ∀ i, i ≠ k → (w.moveFixedToFree k).status i = w.status i := fun i hi => updA_ne _ _ hi
  refine ⟨fun i hi hst => ?_, fun i hi hst => ?_, fun i hi hst => ?_, h.box, fun i hi ht => ?_⟩
  · have hik : i ≠ k := by rintro rfl; rw [hstatk] at hst; cases hst
    rw [hstatne i hik] at hst
    rw [hy i hi hik]; exact h.lower i hi hst
  · have hik : i ≠ k := by rintro rfl; rw [hstatk] at hst; cases hst
    rw [hstatne i hik] at hst
    rw [hy i hi hik]; exact h.upper i hi hst
  · by_cases hik : i = k
    · subst hik
      have hbx := h.box i hi
      refine ⟨hyk, fun _ => ?_⟩
      rcases hw.fixed _ hk with hq | hq
      · have := (h.lower i hi hq).1
        exact ⟨fun _ => this.ge, fun _ => this.le.trans hbx⟩
      · have := (h.upper i hi hq).1
        exact ⟨fun _ => hbx.trans this.ge, fun _ => this.le⟩
    · rw [hstatne i hik] at hst
      rw [hy i hi hik]; exact h.inactive i hi hst
  · have hik : i ≠ k := by rintro rfl; exact hty ht
    rw [hstatne i hik]
    exact h.eq i hi ht

/-- A member at its limit enters, with a multiplier of the right sign. -/
theorem add (h : SideOK w obs v l u y n) {k : Nat} {st : SubjectToStatus} (hst : st = ST_LOWER ∨ st = ST_UPPER) (hty : w.type k ≠ ST_EQUALITY)
    {y' : Nat → K} (hy : ∀ i < n, i ≠ k → y' i = y i) (hl : st = ST_LOWER → v k = l k ∧ 0 ≤ y' k) (hu : st = ST_UPPER → v k = u k ∧ y' k ≤ 0) :
    SideOK (w.moveFreeToFixed k st) obs v l u y' n := by
  have hstatk : (w.moveFreeToFixed k st).status k = st := updA_same _ _ _
  have hstatne : ∀ i, i ≠ k → (w.moveFreeToFixed k st).status i = w.status i := fun i hi => updA_ne _ _ hi
  refine ⟨fun i hi hs => ?_, fun i hi hs => ?_, fun i hi hs => ?_, h.box, fun i hi ht => ?_⟩
  · by_cases hik : i = k
    · subst hik
      rw [hstatk] at hs
      exact ⟨(hl hs).1, fun _ => (hl hs).2⟩
    · rw [hstatne i hik] at hs
      rw [hy i hi hik]; exact h.lower i hi hs
  · by_cases hik : i = k
    · subst hik
      rw [hstatk] at hs
      exact ⟨(hu hs).1, fun _ => (hu hs).2⟩
    · rw [hstatne i hik] at hs
      rw [hy i hi hik]; exact h.upper i hi hs
  · by_cases hik : i = k
    · subst hik
      rw [hstatk] at hs
      rcases hst with e | e <;> rw [e] at hs <;> cases hs
    · rw [hstatne i hik] at hs
      rw [hy i hi hik]; exact h.inactive i hi hs
  · have hik : i ≠ k := by rintro rfl; exact hty ht
    rw [hstatne i hik]
    exact h.eq i hi ht

/-- A member with multiplier zero changes side; its limits coincide afterwards. -/
theorem flip (h : SideOK w obs v l u y n) {k : Nat} (hty : w.type k ≠ ST_EQUALITY) (hyk : y k = 0) {l' u' : Nat → K}
    (hl : ∀ i < n, i ≠ k → l' i = l i) (hu : ∀ i < n, i ≠ k → u' i = u i) (hlk : l' k = v k) (huk : u' k = v k) :
    SideOK (w.flipFixed k) obs v l' u' y n := by
  obtain ⟨f1, f2, f3, f4, f5, f6, f7⟩ := w.flipFixed_fields k
  refine ⟨fun i hi hs => ?_, fun i hi hs => ?_, fun i hi hs => ?_, fun i hi => ?_, fun i hi ht => ?_⟩
  · by_cases hik : i = k
    · subst hik; exact ⟨hlk.symm, fun _ => hyk.ge⟩
    · rw [f7 i hik] at hs
      rw [hl i hi hik, f4]; exact h.lower i hi hs
  · by_cases hik : i = k
    · subst hik; exact ⟨huk.symm, fun _ => hyk.le⟩
    · rw [f7 i hik] at hs
      rw [hu i hi hik, f4]; exact h.upper i hi hs
  · by_cases hik : i = k
    · subst hik; exact ⟨hyk, fun _ => ⟨fun _ => hlk.le, fun _ => huk.ge⟩⟩
    · rw [f7 i hik] at hs
      rw [hl i hi hik, hu i hi hik, f5, f6]; exact h.inactive i hi hs
  · by_cases hik : i = k
    · subst hik; rw [hlk, huk]
    · rw [hl i hi hik, hu i hi hik]; exact h.box i hi
  · rw [f4] at ht
    have hik : i ≠ k := by rintro rfl; exact hty ht
    rw [f7 i hik, hl i hi hik, hu i hi hik]
    exact h.eq i hi ht

end SideOK

namespace QPC

/-! ### ratio tests -/

theorem blockTest_fixed {w : WS} (hw : w.OK) {eN eD : K} (he : eN ≤ 0) (hd : 0 ≤ eD) {num dy : Nat → K}
    (hy : ∀ k < w.nFX, w.type (w.fx k) ≠ ST_EQUALITY → 0 ≤ sg w (w.fx k) (num k)) {p : K × Option Change} (hp : 0 ≤ p.1) (isB : Bool) :
    ∃ t b, blockTest p w isB ST_INACTIVE num (fun i => -dy i) eN eD w.fixed = .ok (t, b) ∧ 0 ≤ t ∧ t ≤ p.1 ∧
      (∀ t', 0 ≤ t' → t' ≤ t → ∀ k < w.nFX, w.type (w.fx k) ≠ ST_EQUALITY → DenOK eD (sg w (w.fx k) (-dy k)) →
        0 ≤ sg w (w.fx k) (num k + t' * dy k)) ∧
      ((b = p.2 ∧ t = p.1) ∨ t < p.1 ∧ ∃ k < w.nFX, b = some ⟨isB, w.fx k, ST_INACTIVE⟩ ∧ w.type (w.fx k) ≠ ST_EQUALITY ∧ num k + t * dy k = 0 ∧
        eD ≤ sg w (w.fx k) (-dy k)) := by
  have hFX : ∀ ii ∈ w.fixed, ii < w.n ∧ (w.status ii = ST_INACTIVE ∨ w.status ii = ST_LOWER ∨ w.status ii = ST_UPPER) :=
    fun ii h => ⟨hw.lt_fixed h, Or.inr (hw.fixed ii h)⟩
  obtain ⟨t1, b1, r1, p1, p2, p3, p4⟩ := ratioTest_spec (w := w) (num := num) (den := fun i => -dy i) he hd w.fixed 0 p.1 none hp hFX
    (fun k hk hty => by rw [Nat.zero_add]; exact hy k hk hty)
  unfold blockTest
  rw [r1]
  simp only [Res.bind_ok]
  refine ⟨_, _, rfl, p1, p2, ?_, ?_⟩
  · intro t' h0 h1 k hk hty hden
    have h := p3 k hk hty (by rw [Nat.zero_add]; exact hden)
    rw [Nat.zero_add] at h
    have := nonneg_shorten (hy k hk hty) h h0 h1
    have e : num k + t' * dy k = num k - t' * (-dy k) := by ring
    rw [e, sg_sub]
    exact this
  · rcases p4 with ⟨e1, e2⟩ | ⟨k, hk, e1, e2, e3, e4, e5⟩
    · rw [e1]; exact Or.inl ⟨rfl, e2⟩
    · rw [e1]
      rw [Nat.zero_add] at e4 e5
      refine Or.inr ⟨e2, k, hk, rfl, e3, ?_, e5⟩
      rw [e4]; ring

theorem blockTest_free {w : WS} (hw : w.OK) {eN eD : K} (he : eN ≤ 0) (hd : 0 ≤ eD) {num den : Nat → K} (hnum : ∀ k, 0 ≤ num k)
    {p : K × Option Change} (hp : 0 ≤ p.1) (isB : Bool) (st : SubjectToStatus) :
    ∃ t b, blockTest p w isB st num den eN eD w.free = .ok (t, b) ∧ 0 ≤ t ∧ t ≤ p.1 ∧
      (∀ t', 0 ≤ t' → t' ≤ t → ∀ k < w.nFR, w.type (w.fr k) ≠ ST_EQUALITY → DenOK eD (den k) → t' * den k ≤ num k) ∧
      ((b = p.2 ∧ t = p.1) ∨ t < p.1 ∧ ∃ k < w.nFR, b = some ⟨isB, w.fr k, st⟩ ∧ w.type (w.fr k) ≠ ST_EQUALITY ∧ num k = t * den k ∧ eD ≤ den k) := by
  have hFR : ∀ ii ∈ w.free, ii < w.n ∧ (w.status ii = ST_INACTIVE ∨ w.status ii = ST_LOWER ∨ w.status ii = ST_UPPER) :=
    fun ii h => ⟨hw.lt_free h, Or.inl (hw.free ii h)⟩
  have hsgFR : ∀ k < w.nFR, ∀ v : K, sg w (w.fr k) v = v := by
    intro k hk v
    exact sg_ne (by rw [hw.free _ (WS.fr_mem hk)]; decide) v
  obtain ⟨t1, b1, r1, p1, p2, p3, p4⟩ := ratioTest_spec (w := w) (num := num) (den := den) he hd w.free 0 p.1 none hp hFR
    (fun k hk _ => by
      rw [Nat.zero_add]
      show 0 ≤ sg w (w.fr k) (num k)
      rw [hsgFR k hk]; exact hnum k)
  unfold blockTest
  rw [r1]
  simp only [Res.bind_ok]
  refine ⟨_, _, rfl, p1, p2, ?_, ?_⟩
  · intro t' h0 h1 k hk hty hden
    have h := p3 k hk hty (by
      rw [Nat.zero_add]
      show DenOK _ (sg w (w.fr k) (den k))
      rw [hsgFR k hk]; exact hden)
    rw [Nat.zero_add] at h
    have h : 0 ≤ sg w (w.fr k) (num k) - t1 * sg w (w.fr k) (den k) := h
    rw [hsgFR k hk, hsgFR k hk] at h
    have := nonneg_shorten (hnum k) h h0 h1
    linarith
  · rcases p4 with ⟨e1, e2⟩ | ⟨k, hk, e1, e2, e3, e4, e5⟩
    · rw [e1]; exact Or.inl ⟨rfl, e2⟩
    · rw [e1]
      rw [Nat.zero_add] at e4 e5
      have e5 : _ ≤ sg w (w.fr k) (den k) := e5
      rw [hsgFR k hk] at e5
      exact Or.inr ⟨e2, k, hk, rfl, e3, e4, e5⟩

theorem ite_bind_ok {α β : Type} {c : Prop} [Decidable c] {m : Res α} {a r : α} {f : α → Res β} (h : (if c then m else .ok a) = .ok r) :
    (if c then (m >>= f) else f a) = f r := by
  by_cases hc : c
  · rw [if_pos hc] at h ⊢; rw [h]; rfl
  · rw [if_neg hc] at h ⊢
    cases h; rfl

/-- Why the step has length `tau`. -/
def Blocks (s : QPC K) (h : Shift K) (d : Dir K) (tau : K) : Option Change → Prop
  | none => tau = 1
  | some ⟨true, i, ST_INACTIVE⟩ => tau < 1 ∧ ∃ k < s.nFX, i = s.fx k ∧ s.bounds.type i ≠ ST_EQUALITY ∧ s.y i + tau * d.yFX k = 0 ∧
      s.options.epsDen ≤ sg s.bounds i (-d.yFX k)
  | some ⟨false, i, ST_INACTIVE⟩ => tau < 1 ∧ ∃ k < s.nAC, i = s.ac k ∧ s.cons.type i ≠ ST_EQUALITY ∧ s.y (s.nV + i) + tau * d.yAC k = 0 ∧
      s.options.epsDen ≤ sg s.cons i (-d.yAC k)
  | some ⟨true, i, ST_LOWER⟩ => tau < 1 ∧ s.bounds.noLower = false ∧ ∃ k < s.nFR, i = s.fr k ∧ s.bounds.type i ≠ ST_EQUALITY ∧
      getMax (s.x i - s.lb i) 0 = tau * (h.lb i - d.xFR k) ∧ s.options.epsDen ≤ h.lb i - d.xFR k
  | some ⟨true, i, ST_UPPER⟩ => tau < 1 ∧ s.bounds.noUpper = false ∧ ∃ k < s.nFR, i = s.fr k ∧ s.bounds.type i ≠ ST_EQUALITY ∧
      getMax (s.ub i - s.x i) 0 = tau * (d.xFR k - h.ub i) ∧ s.options.epsDen ≤ d.xFR k - h.ub i
  | some ⟨false, i, ST_LOWER⟩ => tau < 1 ∧ s.cons.noLower = false ∧ i ∈ s.cons.free ∧ s.cons.type i ≠ ST_EQUALITY ∧
      getMax (s.Axl i) 0 = tau * (h.lbA i - s.dirAx d i) ∧ s.options.epsDen ≤ h.lbA i - s.dirAx d i
  | some ⟨false, i, ST_UPPER⟩ => tau < 1 ∧ s.cons.noUpper = false ∧ i ∈ s.cons.free ∧ s.cons.type i ≠ ST_EQUALITY ∧
      getMax (s.Axu i) 0 = tau * (s.dirAx d i - h.ubA i) ∧ s.options.epsDen ≤ s.dirAx d i - h.ubA i
  | _ => False

/-- What the ratio tests say about a step of length `tau`. -/
structure StepOK (s : QPC K) (h : Shift K) (d : Dir K) (tau : K) : Prop where
  dualC : ∀ k < s.nAC, s.cons.type (s.ac k) ≠ ST_EQUALITY → DenOK s.options.epsDen (sg s.cons (s.ac k) (-d.yAC k)) →
    0 ≤ sg s.cons (s.ac k) (s.y (s.nV + s.ac k) + tau * d.yAC k)
  dualB : ∀ k < s.nFX, s.bounds.type (s.fx k) ≠ ST_EQUALITY → DenOK s.options.epsDen (sg s.bounds (s.fx k) (-d.yFX k)) →
    0 ≤ sg s.bounds (s.fx k) (s.y (s.fx k) + tau * d.yFX k)
  lowerC : s.cons.noLower = false → ∀ k < s.nIAC, s.cons.type (s.iac k) ≠ ST_EQUALITY →
    DenOK s.options.epsDen (h.lbA (s.iac k) - s.dirAx d (s.iac k)) → tau * (h.lbA (s.iac k) - s.dirAx d (s.iac k)) ≤ getMax (s.Axl (s.iac k)) 0
  upperC : s.cons.noUpper = false → ∀ k < s.nIAC, s.cons.type (s.iac k) ≠ ST_EQUALITY →
    DenOK s.options.epsDen (s.dirAx d (s.iac k) - h.ubA (s.iac k)) → tau * (s.dirAx d (s.iac k) - h.ubA (s.iac k)) ≤ getMax (s.Axu (s.iac k)) 0
  lowerB : s.bounds.noLower = false → ∀ k < s.nFR, s.bounds.type (s.fr k) ≠ ST_EQUALITY →
    DenOK s.options.epsDen (h.lb (s.fr k) - d.xFR k) → tau * (h.lb (s.fr k) - d.xFR k) ≤ getMax (s.x (s.fr k) - s.lb (s.fr k)) 0
  upperB : s.bounds.noUpper = false → ∀ k < s.nFR, s.bounds.type (s.fr k) ≠ ST_EQUALITY →
    DenOK s.options.epsDen (d.xFR k - h.ub (s.fr k)) → tau * (d.xFR k - h.ub (s.fr k)) ≤ getMax (s.ub (s.fr k) - s.x (s.fr k)) 0

theorem stepLength_spec {s : QPC K} (hwB : s.bounds.OK) (hwC : s.cons.OK) (he : s.options.epsNum ≤ 0) (hd : 0 ≤ s.options.epsDen)
    (hyC : ∀ k < s.nAC, s.cons.type (s.ac k) ≠ ST_EQUALITY → 0 ≤ sg s.cons (s.ac k) (s.y (s.nV + s.ac k)))
    (hyB : ∀ k < s.nFX, s.bounds.type (s.fx k) ≠ ST_EQUALITY → 0 ≤ sg s.bounds (s.fx k) (s.y (s.fx k))) (h : Shift K) (d : Dir K) :
    ∃ tau bc, stepLength s h d = .ok (tau, bc) ∧ 0 ≤ tau ∧ tau ≤ 1 ∧ StepOK s h d tau ∧ Blocks s h d tau bc := by
  obtain ⟨t1, b1, r1, p1, q1, c1, d1⟩ := blockTest_fixed (dy := d.yAC) hwC he hd hyC (p := ((1 : K), (none : Option Change))) zero_le_one false
  have B1 : Blocks s h d t1 b1 := by
    rcases d1 with ⟨e1, e2⟩ | ⟨e0, k, hk, e1, e2, e3⟩
    · rw [e1]; exact e2
    · rw [e1]; exact ⟨e0, k, hk, rfl, e2, e3⟩
  obtain ⟨t2, b2, r2, p2, q2, c2, d2⟩ := blockTest_fixed (dy := d.yFX) hwB he hd hyB (p := (t1, b1)) p1 true
  have B2 : Blocks s h d t2 b2 := by
    rcases d2 with ⟨e1, e2⟩ | ⟨e0, k, hk, e1, e2, e3⟩
    · rw [e1, e2]; exact B1
    · rw [e1]; exact ⟨lt_of_lt_of_le e0 q1, k, hk, rfl, e2, e3⟩
  have h3 : ∃ t b, (if s.cons.noLower = false then
      blockTest (t2, b2) s.cons false ST_LOWER (fun i => getMax (s.Axl (s.iac i)) 0) (fun i => h.lbA (s.iac i) - s.dirAx d (s.iac i))
        s.options.epsNum s.options.epsDen s.cons.free else .ok (t2, b2)) = .ok (t, b) ∧ 0 ≤ t ∧ t ≤ t2 ∧
      (s.cons.noLower = false → ∀ t', 0 ≤ t' → t' ≤ t → ∀ k < s.nIAC, s.cons.type (s.iac k) ≠ ST_EQUALITY →
        DenOK s.options.epsDen (h.lbA (s.iac k) - s.dirAx d (s.iac k)) → t' * (h.lbA (s.iac k) - s.dirAx d (s.iac k)) ≤ getMax (s.Axl (s.iac k)) 0) ∧
      Blocks s h d t b := by
    by_cases hl : s.cons.noLower = false
    · rw [if_pos hl]
      obtain ⟨t, b, r, p, q, c, e⟩ := blockTest_free hwC he hd (num := fun i => getMax (s.Axl (s.iac i)) 0)
        (den := fun i => h.lbA (s.iac i) - s.dirAx d (s.iac i)) (fun k => getMax_nonneg _) (p := (t2, b2)) p2 false ST_LOWER
      refine ⟨t, b, r, p, q, fun _ => c, ?_⟩
      rcases e with ⟨e1, e2⟩ | ⟨e0, k, hk, e1, e2, e3⟩
      · rw [e1, e2]; exact B2
      · rw [e1]; exact ⟨lt_of_lt_of_le e0 (q2.trans q1), hl, WS.fr_mem hk, e2, e3⟩
    · rw [if_neg hl]
      exact ⟨t2, b2, rfl, p2, le_refl _, fun h => absurd h hl, B2⟩
  obtain ⟨t3, b3, r3, p3, q3, c3, B3⟩ := h3
  have h4 : ∃ t b, (if s.cons.noUpper = false then
      blockTest (t3, b3) s.cons false ST_UPPER (fun i => getMax (s.Axu (s.iac i)) 0) (fun i => s.dirAx d (s.iac i) - h.ubA (s.iac i))
        s.options.epsNum s.options.epsDen s.cons.free else .ok (t3, b3)) = .ok (t, b) ∧ 0 ≤ t ∧ t ≤ t3 ∧
      (s.cons.noUpper = false → ∀ t', 0 ≤ t' → t' ≤ t → ∀ k < s.nIAC, s.cons.type (s.iac k) ≠ ST_EQUALITY →
        DenOK s.options.epsDen (s.dirAx d (s.iac k) - h.ubA (s.iac k)) → t' * (s.dirAx d (s.iac k) - h.ubA (s.iac k)) ≤ getMax (s.Axu (s.iac k)) 0) ∧
      Blocks s h d t b := by
    by_cases hl : s.cons.noUpper = false
    · rw [if_pos hl]
      obtain ⟨t, b, r, p, q, c, e⟩ := blockTest_free hwC he hd (num := fun i => getMax (s.Axu (s.iac i)) 0)
        (den := fun i => s.dirAx d (s.iac i) - h.ubA (s.iac i)) (fun k => getMax_nonneg _) (p := (t3, b3)) p3 false ST_UPPER
      refine ⟨t, b, r, p, q, fun _ => c, ?_⟩
      rcases e with ⟨e1, e2⟩ | ⟨e0, k, hk, e1, e2, e3⟩
      · rw [e1, e2]; exact B3
      · rw [e1]; exact ⟨lt_of_lt_of_le e0 (q3.trans (q2.trans q1)), hl, WS.fr_mem hk, e2, e3⟩
    · rw [if_neg hl]
      exact ⟨t3, b3, rfl, p3, le_refl _, fun h => absurd h hl, B3⟩
  obtain ⟨t4, b4, r4, p4, q4, c4, B4⟩ := h4
  have h5 : ∃ t b, (if s.bounds.noLower = false then
      blockTest (t4, b4) s.bounds true ST_LOWER (fun i => getMax (s.x (s.fr i) - s.lb (s.fr i)) 0) (fun i => h.lb (s.fr i) - d.xFR i)
        s.options.epsNum s.options.epsDen s.bounds.free else .ok (t4, b4)) = .ok (t, b) ∧ 0 ≤ t ∧ t ≤ t4 ∧
      (s.bounds.noLower = false → ∀ t', 0 ≤ t' → t' ≤ t → ∀ k < s.nFR, s.bounds.type (s.fr k) ≠ ST_EQUALITY →
        DenOK s.options.epsDen (h.lb (s.fr k) - d.xFR k) → t' * (h.lb (s.fr k) - d.xFR k) ≤ getMax (s.x (s.fr k) - s.lb (s.fr k)) 0) ∧
      Blocks s h d t b := by
    by_cases hl : s.bounds.noLower = false
    · rw [if_pos hl]
      obtain ⟨t, b, r, p, q, c, e⟩ := blockTest_free hwB he hd (num := fun i => getMax (s.x (s.fr i) - s.lb (s.fr i)) 0)
        (den := fun i => h.lb (s.fr i) - d.xFR i) (fun k => getMax_nonneg _) (p := (t4, b4)) p4 true ST_LOWER
      refine ⟨t, b, r, p, q, fun _ => c, ?_⟩
      rcases e with ⟨e1, e2⟩ | ⟨e0, k, hk, e1, e2, e3⟩
      · rw [e1, e2]; exact B4
      · rw [e1]; exact ⟨lt_of_lt_of_le e0 (q4.trans (q3.trans (q2.trans q1))), hl, k, hk, rfl, e2, e3⟩
    · rw [if_neg hl]
      exact ⟨t4, b4, rfl, p4, le_refl _, fun h => absurd h hl, B4⟩
  obtain ⟨t5, b5, r5, p5, q5, c5, B5⟩ := h5
  have h6 : ∃ t b, (if s.bounds.noUpper = false then
      blockTest (t5, b5) s.bounds true ST_UPPER (fun i => getMax (s.ub (s.fr i) - s.x (s.fr i)) 0) (fun i => d.xFR i - h.ub (s.fr i))
        s.options.epsNum s.options.epsDen s.bounds.free else .ok (t5, b5)) = .ok (t, b) ∧ 0 ≤ t ∧ t ≤ t5 ∧
      (s.bounds.noUpper = false → ∀ t', 0 ≤ t' → t' ≤ t → ∀ k < s.nFR, s.bounds.type (s.fr k) ≠ ST_EQUALITY →
        DenOK s.options.epsDen (d.xFR k - h.ub (s.fr k)) → t' * (d.xFR k - h.ub (s.fr k)) ≤ getMax (s.ub (s.fr k) - s.x (s.fr k)) 0) ∧
      Blocks s h d t b := by
    by_cases hl : s.bounds.noUpper = false
    · rw [if_pos hl]
      obtain ⟨t, b, r, p, q, c, e⟩ := blockTest_free hwB he hd (num := fun i => getMax (s.ub (s.fr i) - s.x (s.fr i)) 0)
        (den := fun i => d.xFR i - h.ub (s.fr i)) (fun k => getMax_nonneg _) (p := (t5, b5)) p5 true ST_UPPER
      refine ⟨t, b, r, p, q, fun _ => c, ?_⟩
      rcases e with ⟨e1, e2⟩ | ⟨e0, k, hk, e1, e2, e3⟩
      · rw [e1, e2]; exact B5
      · rw [e1]; exact ⟨lt_of_lt_of_le e0 (q5.trans (q4.trans (q3.trans (q2.trans q1)))), hl, k, hk, rfl, e2, e3⟩
    · rw [if_neg hl]
      exact ⟨t5, b5, rfl, p5, le_refl _, fun h => absurd h hl, B5⟩
  obtain ⟨t6, b6, r6, p6, q6, c6, B6⟩ := h6
  refine ⟨t6, b6, ?_, p6, q6.trans (q5.trans (q4.trans (q3.trans (q2.trans q1)))), ?_, B6⟩
  · unfold stepLength
    dsimp only
    rw [r1]
    simp only [Res.bind_ok]
    rw [r2]
    simp only [Res.bind_ok]
    refine (ite_bind_ok r3).trans ?_
    refine (ite_bind_ok r4).trans ?_
    refine (ite_bind_ok r5).trans ?_
    exact r6
  · exact ⟨c1 t6 p6 (q6.trans (q5.trans (q4.trans (q3.trans q2)))), c2 t6 p6 (q6.trans (q5.trans (q4.trans q3))),
      fun hl => c3 hl t6 p6 (q6.trans (q5.trans q4)), fun hl => c4 hl t6 p6 (q6.trans q5), fun hl => c5 hl t6 p6 q6,
      fun hl => c6 hl t6 p6 (le_refl _)⟩

end QPC
end QpOASES
