import Verif.Spec.Distant
import Verif.Props.C66_C68_Reports

/-!
C66, C67 for runs with far bounds: the QP is solved with limits of finite size in place of those that are absent or farther away, and the size grows by
the factor `growFarBounds` until it exceeds `INFTY`.
-/
namespace QpOASES.Props
open Finset Spec QPC ReturnValue SubjectToStatus SubjectToType HessianType QProblemStatus
open QPB (lowerOf upperOf GivenHessian EqualitiesOK)

set_option linter.unusedSectionVars false

variable {K : Type} [Field K] [LinearOrder K] [IsStrictOrderedRing K]

/-- One side: a value of moderate size that observes the finite limits of the user observes the far limits, too. -/
theorem far_lower {b : Option (Nat → K)} {lA : Nat → K} {fl B c v : K} {k : Nat} (hA : lowerOf b k = lA k)
    (hw : fl ≤ -B ∨ ∃ l, b = some l ∧ fl = l k) (hc : 1 ≤ c) (hB : INFTY ≤ B * c) (hv : |v| < INFTY / c) (hf : -INFTY < lA k → lA k ≤ v) : fl ≤ v := by
  have hc0 : 0 < c := lt_of_lt_of_le one_pos hc
  have h1 : INFTY / c ≤ B := (div_le_iff₀ hc0).2 hB
  have h2 : (INFTY : K) / c ≤ INFTY := div_le_self INFTY_pos.le hc
  have h3 := (abs_lt.1 hv).1
  rcases hw with hw | ⟨l, rfl, hw⟩
  · linarith
  · have hA : l k = lA k := hA
    by_cases hh : -INFTY < lA k
    · rw [hw, hA]; exact hf hh
    · rw [hw, hA]; linarith [not_lt.1 hh]

theorem far_upper {b : Option (Nat → K)} {uA : Nat → K} {fu B c v : K} {k : Nat} (hA : upperOf b k = uA k)
    (hw : B ≤ fu ∨ ∃ u, b = some u ∧ fu = u k) (hc : 1 ≤ c) (hB : INFTY ≤ B * c) (hv : |v| < INFTY / c) (hf : uA k < INFTY → v ≤ uA k) : v ≤ fu := by
  have hc0 : 0 < c := lt_of_lt_of_le one_pos hc
  have h1 : INFTY / c ≤ B := (div_le_iff₀ hc0).2 hB
  have h2 : (INFTY : K) / c ≤ INFTY := div_le_self INFTY_pos.le hc
  have h3 := (abs_lt.1 hv).2
  rcases hw with hw | ⟨l, rfl, hw⟩
  · linarith
  · have hA : l k = uA k := hA
    by_cases hh : uA k < INFTY
    · rw [hw, hA]; exact hf hh
    · rw [hw, hA]; linarith [not_lt.1 hh]

/-- What a report of infeasibility says about the QP of the user -/
theorem far_infeasible {n m : Nat} {M A : Nat → Nat → K} {l0 u0 : Nat → K} {s : QPC K} (h : QPC.Live n m M A l0 u0 s) {g lA uA : Nat → K}
    {lb ub lbA ubA : Option (Nat → K)} (hl : ∀ k < m, lowerOf lbA k = lA k) (hu : ∀ k < m, upperOf ubA k = uA k)
    (hF : QPC.FarReport s g lb ub lbA ubA) (hg : 1 ≤ s.options.growFarBounds) (hi : s.infeasible = true) :
    let P := QPC.qp n m M g (lowerOf lb) (upperOf ub) A lA uA
    (∀ x, P.FeasibleInf x → P.Beyond (INFTY / s.options.growFarBounds) x) ∨ P.HugeMultiplier s.y s.options.maxDualJump := by
  intro P
  obtain ⟨f, B, -, hB, -, hW, hv⟩ := hF.infeasible hi
  rw [h.nV, h.nC] at hW
  rcases report_infeasible h (fun _ _ => rfl) (fun _ _ => rfl) hv hi with hinf | hm
  · refine Or.inl fun x hx => ?_
    by_contra hb
    unfold QP.Beyond at hb
    push Not at hb
    obtain ⟨b1, b2⟩ := hb
    exact hinf x ⟨fun i hi => far_lower rfl (hW.lower i hi) hg hB (b1 i hi) (hx.lower i hi),
      fun i hi => far_upper rfl (hW.upper i hi) hg hB (b1 i hi) (hx.upper i hi),
      fun k hk => far_lower (hl k hk) (hW.lowerA k hk) hg hB (b2 k hk) (hx.lowerA k hk),
      fun k hk => far_upper (hu k hk) (hW.upperA k hk) hg hB (b2 k hk) (hx.upperA k hk)⟩
  · exact Or.inr hm

/-- A value close to a far limit is large. -/
theorem near_lower {b : Option (Nat → K)} {fl B c t v : K} {k : Nat} (hw : fl ≤ -B ∨ ∃ l, b = some l ∧ fl = l k) (hn : ∀ l, b = some l → l k < fl)
    (hc : 0 < c) (ht : t ≤ 1) (hB : INFTY ≤ B * c) (hv : |fl - v| < B * t) : (1 - t) * INFTY / c ≤ |v| := by
  have h1 : (1 - t) * INFTY / c ≤ B * (1 - t) := by
    rw [div_le_iff₀ hc]
    calc (1 - t) * INFTY ≤ (1 - t) * (B * c) := mul_le_mul_of_nonneg_left hB (by linarith)
      _ = _ := by ring
  rcases hw with hw | ⟨l, hl, hw⟩
  · have := (abs_lt.1 hv).1
    have h2 : -v ≤ |v| := neg_le_abs v
    nlinarith
  · exact absurd (hn l hl) (by rw [hw]; exact lt_irrefl _)

theorem near_upper {b : Option (Nat → K)} {fu B c t v : K} {k : Nat} (hw : B ≤ fu ∨ ∃ u, b = some u ∧ fu = u k) (hn : ∀ u, b = some u → fu < u k)
    (hc : 0 < c) (ht : t ≤ 1) (hB : INFTY ≤ B * c) (hv : |fu - v| < B * t) : (1 - t) * INFTY / c ≤ |v| := by
  have h1 : (1 - t) * INFTY / c ≤ B * (1 - t) := by
    rw [div_le_iff₀ hc]
    calc (1 - t) * INFTY ≤ (1 - t) * (B * c) := mul_le_mul_of_nonneg_left hB (by linarith)
      _ = _ := by ring
  rcases hw with hw | ⟨l, hl, hw⟩
  · have := (abs_lt.1 hv).2
    have h2 : v ≤ |v| := le_abs_self v
    nlinarith
  · exact absurd (hn l hl) (by rw [hw]; exact lt_irrefl _)

/-- What a report of unboundedness says about the QP of the user.  `f` are the limits of the last QP that has been solved. -/
def FarUnbounded (n m : Nat) (M A : Nat → Nat → K) (g l u lA uA : Nat → K) (s : QPC K) : Prop :=
  ∃ H', (∀ i < n, ∀ j < n, |H' i j - M i j| ≤ EPS) ∧
    let P := QPC.qp n m H' g l u A lA uA
    ((∃ d, P.Descent d ∧ (P.Recession d ∧ ((∃ z, P.FeasibleInf z) → P.UnboundedBelow) ∨
      ∃ f : QPC.Far K, (∀ i < n, l i ≤ f.lb i ∨ l i ≤ -INFTY) ∧ (∀ i < n, f.ub i ≤ u i ∨ INFTY ≤ u i) ∧ (∀ k < m, lA k ≤ f.lbA k ∨ lA k ≤ -INFTY) ∧
        (∀ k < m, f.ubA k ≤ uA k ∨ INFTY ≤ uA k) ∧
        QP.FarLimit (QPC.qp n m H' g f.lb f.ub A f.lbA f.ubA) (QPC.qp n m H' s.g s.lb s.ub A s.lbA s.ubA) s.x d s.options.maxPrimalJump)) ∨
      P.Beyond ((1 - s.options.boundTolerance) * INFTY / s.options.growFarBounds) s.x)

theorem lowerOf_le {b : Option (Nat → K)} {l : Nat → K} {k : Nat} {c : K} (h : lowerOf b k = l k) (hw : ∀ l', b = some l' → l' k ≤ c) : l k ≤ c ∨ l k ≤ -INFTY := by
  cases b with
  | none => exact Or.inr (h ▸ le_refl _)
  | some l' => exact Or.inl (by rw [← h]; exact hw l' rfl)

theorem le_upperOf {b : Option (Nat → K)} {u : Nat → K} {k : Nat} {c : K} (h : upperOf b k = u k) (hw : ∀ u', b = some u' → c ≤ u' k) : c ≤ u k ∨ INFTY ≤ u k := by
  cases b with
  | none => exact Or.inr (h ▸ le_refl _)
  | some l' => exact Or.inl (by rw [← h]; exact hw l' rfl)

theorem far_unbounded {n m : Nat} {M A : Nat → Nat → K} {l0 u0 : Nat → K} {s : QPC K} (h : QPC.Live n m M A l0 u0 s) {g lA uA : Nat → K}
    {lb ub lbA ubA : Option (Nat → K)} (hl : ∀ k < m, lowerOf lbA k = lA k) (hu : ∀ k < m, upperOf ubA k = uA k)
    (hF : QPC.FarReport s g lb ub lbA ubA) (hon : s.options.enableFarBounds = true) (hg : 0 < s.options.growFarBounds) (ht : s.options.boundTolerance ≤ 1)
    (hb : s.unbounded = true) : FarUnbounded n m M A g (lowerOf lb) (upperOf ub) lA uA s := by
  have hax : ∀ k < m, s.Ax k = QP.row n A s.x k := fun k hk => by
    have hty : s.cons.type k ≠ ST_UNBOUNDED := fun e => by
      have := (h.unbounded k hk e).2
      rw [hon] at this
      cases this
    rw [(h.good.ax k (by rw [h.nC]; exact hk) hty).1, ← QPC.row_eq (h.mat k hk), h.nV]
  obtain ⟨f, B, hB0, hin, hW, hv⟩ := hF.unbounded hb
  have hnV := h.nV
  have hnC := h.nC
  rw [hnV, hnC] at hW hin
  have w1 : ∀ i < n, lowerOf lb i ≤ f.lb i ∨ lowerOf lb i ≤ -INFTY := fun i hi => lowerOf_le rfl fun l' e => hin.lower l' e i hi
  have w2 : ∀ i < n, f.ub i ≤ upperOf ub i ∨ INFTY ≤ upperOf ub i := fun i hi => le_upperOf rfl fun l' e => hin.upper l' e i hi
  have w3 : ∀ k < m, lA k ≤ f.lbA k ∨ lA k ≤ -INFTY := fun k hk => lowerOf_le (hl k hk) fun l' e => hin.lowerA l' e k hk
  have w4 : ∀ k < m, f.ubA k ≤ uA k ∨ INFTY ≤ uA k := fun k hk => le_upperOf (hu k hk) fun l' e => hin.upperA l' e k hk
  rcases hv with hv | ⟨hB, hn⟩
  · obtain ⟨d, hd, hh⟩ := report_direction h (fun _ _ => rfl) (fun _ _ => rfl) hv hb
    have hd' : (QPC.qp n m s.Heff g (lowerOf lb) (upperOf ub) A lA uA).Descent d := ⟨hd.flat, hd.falls⟩
    refine ⟨s.Heff, h.hess, Or.inl ⟨d, hd', ?_⟩⟩
    rcases hh with hr | hfar
    · have hr' : (QPC.qp n m s.Heff g (lowerOf lb) (upperOf ub) A lA uA).Recession d :=
        ⟨fun i hi hs => (w1 i hi).elim (fun hw => hw.trans (hr.lower i hi hs)) id, fun i hi hs => (w2 i hi).elim (fun hw => (hr.upper i hi hs).trans hw) id,
          fun k hk hs => (w3 k hk).elim (fun hw => hw.trans (hr.lowerA k hk hs)) id, fun k hk hs => (w4 k hk).elim (fun hw => (hr.upperA k hk hs).trans hw) id⟩
      exact Or.inl ⟨hr', fun ⟨z, hz⟩ => hd'.unbounded (hnV ▸ QPC.Heff_symm h.good.facs.sym) hr' hz⟩
    · exact Or.inr ⟨f, w1, w2, w3, w4, hfar⟩
  · refine ⟨s.Heff, h.hess, Or.inr ?_⟩
    rcases hn with ⟨i, hi, h1, h2⟩ | ⟨i, hi, h1, h2⟩ | ⟨k, hk, h1, h2⟩ | ⟨k, hk, h1, h2⟩
    · rw [hnV] at hi
      exact Or.inl ⟨i, hi, near_lower (hW.lower i hi) h1 hg ht hB h2⟩
    · rw [hnV] at hi
      exact Or.inl ⟨i, hi, near_upper (hW.upper i hi) h1 hg ht hB h2⟩
    · rw [hnC] at hk
      rw [hax k hk] at h2
      exact Or.inr ⟨k, hk, near_lower (hW.lowerA k hk) h1 hg ht hB h2⟩
    · rw [hnC] at hk
      rw [hax k hk] at h2
      exact Or.inr ⟨k, hk, near_upper (hW.upperA k hk) h1 hg ht hB h2⟩

/-! ### C66 -/

/-- **C66** (part): when a hotstart with far bounds reports infeasibility, every point that satisfies all finite limits has a variable or a constraint
whose value is at least `INFTY / growFarBounds`, unless a multiplier is large, as above. -/
theorem C66_hotstart_far_partial {sq : K → K} {fuel n m : Nat} {M A : Nat → Nat → K} {l0 u0 : Nat → K} {s : QPC K}
    (h : SessionC sq fuel n m M A l0 u0 s) (hfar : QPC.FarOptions s.options) (hgrow : 1 ≤ s.options.growFarBounds) {g : Nat → K}
    {lb ub lbA ubA : Option (Nat → K)} {nWSR : Int} {cputime : Option K}
    (hbox : ∀ i < n, lowerOf lb i ≤ upperOf ub i) (hboxA : ∀ k < m, lowerOf lbA k ≤ upperOf ubA k)
    (hc : QPC.FarRunClean sq fuel { s with count := s.count + 1 } g lb ub lbA ubA nWSR cputime)
    {o : OutC K} (ho : QPC.hotstart sq fuel s g lb ub lbA ubA nWSR cputime .null .null = .ok o) (hr : o.rv = RET_HOTSTART_STOPPED_INFEASIBILITY) :
    let P := QPC.qp n m M g (lowerOf lb) (upperOf ub) A (lowerOf lbA) (upperOf ubA)
    (∀ x, P.FeasibleInf x → P.Beyond (INFTY / s.options.growFarBounds) x) ∨ P.HugeMultiplier o.s.y s.options.maxDualJump := by
  have e := h.live.hotstart_far fuel hfar hbox hboxA hc ho
  obtain ⟨e1, e2, e3⟩ := e.reported (Or.inl (e.infeasible hr))
  rw [← e3] at hgrow ⊢
  exact far_infeasible e2 (fun _ _ => rfl) (fun _ _ => rfl) e1 hgrow (e.infeasible hr)

/-- **C66** (part): the same for a cold start. -/
theorem C66_init_far_partial {sq : K → K} (fuel : Nat) {s : QPC K} (hs : QPC.Usable s) (hfar : QPC.FarOptions s.options)
    (hgrow : 1 ≤ s.options.growFarBounds) {H : Option (Nat → K)} {g a : Nat → K}
    {lb ub lbA ubA : Option (Nat → K)} (ha : QPC.Admissible s (lowerOf lb) (upperOf ub) (lowerOf lbA) (upperOf ubA)) {M : Nat → Nat → K}
    (hM : GivenHessian (s.coldData H g a lb ub lbA ubA).toQPB M) (hsym : QP.Symmetric s.nV M) (hst : (s.coldData H g a lb ub lbA ubA).SymH)
    {nWSR : Int} {cputime : Option K} {xOpt yOpt : Option (Nat → K)} {gB gC : Option WS}
    (hc : QPC.StartClean sq (s.coldData H g a lb ub lbA ubA) xOpt yOpt gB gC nWSR cputime)
    (hrun : ∀ s2 c, QPC.StartsAt sq (s.coldData H g a lb ub lbA ubA) xOpt yOpt gB gC nWSR cputime s2 c →
      QPC.FarRunClean sq fuel s2 g (some (lowerOf lb)) (some (upperOf ub)) (some (s.coldData H g a lb ub lbA ubA).lbA)
        (some (s.coldData H g a lb ub lbA ubA).ubA) nWSR c) {o : OutC K}
    (ho : QPC.init sq fuel s H (some g) (some a) lb ub lbA ubA nWSR cputime xOpt yOpt gB gC none = .ok o)
    (hr : o.rv = RET_INIT_FAILED_INFEASIBILITY) :
    let P := QPC.qp s.nV s.nC M g (lowerOf lb) (upperOf ub) (fun k j => a (k * s.nV + j)) (lowerOf lbA) (upperOf ubA)
    (∀ x, P.FeasibleInf x → P.Beyond (INFTY / s.options.growFarBounds) x) ∨ P.HugeMultiplier o.s.y s.options.maxDualJump := by
  obtain ⟨e1, e2, e3, e4, -⟩ := QPC.init_far_report fuel hs hfar ha hM hsym hst hc hrun ho (Or.inl hr)
  have c := hs.cold H g a lb ub lbA ubA
  rw [← e3] at hgrow ⊢
  exact far_infeasible (lb := some (lowerOf lb)) (ub := some (upperOf ub)) (lbA := some (s.coldData H g a lb ub lbA ubA).lbA)
    (ubA := some (s.coldData H g a lb ub lbA ubA).ubA) e2 (fun k hk => congrFun (c.data (by rw [c.nC]; omega)).2.1 k)
    (fun k hk => congrFun (c.data (by rw [c.nC]; omega)).2.2 k) e1 hgrow (e4 hr)

/-- A guess a hotstart with far bounds can make use of -/
def UsableGuessFar (sq : K → K) (fuel : Nat) (s : QPC K) (wB wC : WS) (g : Nat → K) (lb ub lbA ubA : Option (Nat → K)) (nWSR : Int)
    (cputime : Option K) : Prop :=
  ((s.shallRefactorise wB wC = true ∧ QPC.GuessOK s wB wC ∧ QPC.AfreshClean sq (s.guessStart cputime) wB wC) ∨
    (s.shallRefactorise wB wC = false ∧ QPC.UpdateOK s wB wC ∧ QPC.UpdatedClean sq (s.guessStart cputime) wB wC)) ∧
  QPC.FarAfter sq fuel s wB wC g lb ub lbA ubA nWSR cputime

theorem SessionC.resumeFar {sq : K → K} {fuel n m : Nat} {M A : Nat → Nat → K} {l0 u0 : Nat → K} {s : QPC K}
    (h : SessionC sq fuel n m M A l0 u0 s) (hfar : QPC.FarOptions s.options) {g : Nat → K}
    {lb ub lbA ubA : Option (Nat → K)} {nWSR : Int} {cputime : Option K} {gB gC : QPB.Guess} {wB wC : WS} (hG : QPC.Guessed s gB gC wB wC)
    (hbox : ∀ i < n, lowerOf lb i ≤ upperOf ub i) (hboxA : ∀ k < m, lowerOf lbA k ≤ upperOf ubA k)
    (hx : ∀ i < n, s.lb i ≤ s.x i ∧ s.x i ≤ s.ub i) (hxA : ∀ k < m, s.lbA k ≤ s.prodA s.x k ∧ s.prodA s.x k ≤ s.ubA k)
    (hg : UsableGuessFar sq fuel s wB wC g lb ub lbA ubA nWSR cputime)
    {o : OutC K} (ho : QPC.hotstart sq fuel s g lb ub lbA ubA nWSR cputime gB gC = .ok o)
    (hr : o.rv ≠ RET_QPOBJECT_NOT_SETUP ∧ o.rv ≠ RET_SETUP_AUXILIARYQP_FAILED) :
    ∃ l1 u1, QPC.FarEnd n m M A l1 u1 s.options g lb ub lbA ubA o := by
  obtain ⟨⟨h1, h2, h3⟩ | ⟨h1, h2, h3⟩, h4⟩ := hg
  · exact ⟨_, _, h.live.guessedFar fuel h2 h1 hx hxA hfar hbox hboxA h3 h4 (hG.afresh h1 ho) hr⟩
  · exact ⟨_, _, h.live.guessedUpdateFar fuel h2 h1 hx hxA hfar hbox hboxA h3 h4 (hG.updated h.live.good.facs h1 h2.properB h3 ho) hr⟩

/-- **C66** (part): the same for a hotstart with a guessed working set. -/
theorem C66_guessed_far_partial {sq : K → K} {fuel n m : Nat} {M A : Nat → Nat → K} {l0 u0 : Nat → K} {s : QPC K}
    (h : SessionC sq fuel n m M A l0 u0 s) (hfar : QPC.FarOptions s.options) (hgrow : 1 ≤ s.options.growFarBounds) {g : Nat → K}
    {lb ub lbA ubA : Option (Nat → K)} {nWSR : Int} {cputime : Option K} {gB gC : QPB.Guess} {wB wC : WS} (hG : QPC.Guessed s gB gC wB wC)
    (hbox : ∀ i < n, lowerOf lb i ≤ upperOf ub i) (hboxA : ∀ k < m, lowerOf lbA k ≤ upperOf ubA k)
    (hx : ∀ i < n, s.lb i ≤ s.x i ∧ s.x i ≤ s.ub i) (hxA : ∀ k < m, s.lbA k ≤ s.prodA s.x k ∧ s.prodA s.x k ≤ s.ubA k)
    (hg : UsableGuessFar sq fuel s wB wC g lb ub lbA ubA nWSR cputime)
    {o : OutC K} (ho : QPC.hotstart sq fuel s g lb ub lbA ubA nWSR cputime gB gC = .ok o) (hr : o.rv = RET_HOTSTART_STOPPED_INFEASIBILITY) :
    let P := QPC.qp n m M g (lowerOf lb) (upperOf ub) A (lowerOf lbA) (upperOf ubA)
    (∀ x, P.FeasibleInf x → P.Beyond (INFTY / s.options.growFarBounds) x) ∨ P.HugeMultiplier o.s.y s.options.maxDualJump := by
  obtain ⟨l1, u1, e⟩ := h.resumeFar hfar hG hbox hboxA hx hxA hg ho (by rw [hr]; exact ⟨by decide, by decide⟩)
  obtain ⟨e1, e2, e3⟩ := e.reported (Or.inl (e.infeasible hr))
  rw [← e3] at hgrow ⊢
  exact far_infeasible e2 (fun _ _ => rfl) (fun _ _ => rfl) e1 hgrow (e.infeasible hr)

/-! ### C67 -/

/-- **C67** (part): when a hotstart with far bounds reports unboundedness, there is a direction of constant descent along which no finite limit is ever
met, or a limit is only met after a very long step, or the point reached has a variable or a constraint of the size of
`INFTY / growFarBounds`. -/
theorem C67_hotstart_far_partial {sq : K → K} {fuel n m : Nat} {M A : Nat → Nat → K} {l0 u0 : Nat → K} {s : QPC K}
    (h : SessionC sq fuel n m M A l0 u0 s) (hfar : QPC.FarOptions s.options) (htol : s.options.boundTolerance ≤ 1) {g : Nat → K}
    {lb ub lbA ubA : Option (Nat → K)} {nWSR : Int} {cputime : Option K}
    (hbox : ∀ i < n, lowerOf lb i ≤ upperOf ub i) (hboxA : ∀ k < m, lowerOf lbA k ≤ upperOf ubA k)
    (hc : QPC.FarRunClean sq fuel { s with count := s.count + 1 } g lb ub lbA ubA nWSR cputime)
    {o : OutC K} (ho : QPC.hotstart sq fuel s g lb ub lbA ubA nWSR cputime .null .null = .ok o) (hr : o.rv = RET_HOTSTART_STOPPED_UNBOUNDEDNESS) :
    FarUnbounded n m M A g (lowerOf lb) (upperOf ub) (lowerOf lbA) (upperOf ubA) o.s := by
  have e := h.live.hotstart_far fuel hfar hbox hboxA hc ho
  obtain ⟨e1, e2, e3⟩ := e.reported (Or.inr (e.unbounded hr))
  exact far_unbounded e2 (fun _ _ => rfl) (fun _ _ => rfl) e1 (by rw [e3]; exact hfar.on) (by rw [e3]; exact hfar.grow) (by rw [e3]; exact htol) (e.unbounded hr)

/-- **C67** (part): the same for a cold start. -/
theorem C67_init_far_partial {sq : K → K} (fuel : Nat) {s : QPC K} (hs : QPC.Usable s) (hfar : QPC.FarOptions s.options)
    (htol : s.options.boundTolerance ≤ 1) {H : Option (Nat → K)} {g a : Nat → K}
    {lb ub lbA ubA : Option (Nat → K)} (ha : QPC.Admissible s (lowerOf lb) (upperOf ub) (lowerOf lbA) (upperOf ubA)) {M : Nat → Nat → K}
    (hM : GivenHessian (s.coldData H g a lb ub lbA ubA).toQPB M) (hsym : QP.Symmetric s.nV M) (hst : (s.coldData H g a lb ub lbA ubA).SymH)
    {nWSR : Int} {cputime : Option K} {xOpt yOpt : Option (Nat → K)} {gB gC : Option WS}
    (hc : QPC.StartClean sq (s.coldData H g a lb ub lbA ubA) xOpt yOpt gB gC nWSR cputime)
    (hrun : ∀ s2 c, QPC.StartsAt sq (s.coldData H g a lb ub lbA ubA) xOpt yOpt gB gC nWSR cputime s2 c →
      QPC.FarRunClean sq fuel s2 g (some (lowerOf lb)) (some (upperOf ub)) (some (s.coldData H g a lb ub lbA ubA).lbA)
        (some (s.coldData H g a lb ub lbA ubA).ubA) nWSR c) {o : OutC K}
    (ho : QPC.init sq fuel s H (some g) (some a) lb ub lbA ubA nWSR cputime xOpt yOpt gB gC none = .ok o)
    (hr : o.rv = RET_INIT_FAILED_UNBOUNDEDNESS) :
    FarUnbounded s.nV s.nC M (fun k j => a (k * s.nV + j)) g (lowerOf lb) (upperOf ub) (lowerOf lbA) (upperOf ubA) o.s := by
  obtain ⟨e1, e2, e3, -, e5⟩ := QPC.init_far_report fuel hs hfar ha hM hsym hst hc hrun ho (Or.inr hr)
  have c := hs.cold H g a lb ub lbA ubA
  exact far_unbounded (lb := some (lowerOf lb)) (ub := some (upperOf ub)) (lbA := some (s.coldData H g a lb ub lbA ubA).lbA)
    (ubA := some (s.coldData H g a lb ub lbA ubA).ubA) e2 (fun k hk => congrFun (c.data (by rw [c.nC]; omega)).2.1 k)
    (fun k hk => congrFun (c.data (by rw [c.nC]; omega)).2.2 k) e1 (by rw [e3]; exact hfar.on) (by rw [e3]; exact hfar.grow) (by rw [e3]; exact htol) (e5 hr)

/-- **C67** (part): the same for a hotstart with a guessed working set. -/
theorem C67_guessed_far_partial {sq : K → K} {fuel n m : Nat} {M A : Nat → Nat → K} {l0 u0 : Nat → K} {s : QPC K}
    (h : SessionC sq fuel n m M A l0 u0 s) (hfar : QPC.FarOptions s.options) (htol : s.options.boundTolerance ≤ 1) {g : Nat → K}
    {lb ub lbA ubA : Option (Nat → K)} {nWSR : Int} {cputime : Option K} {gB gC : QPB.Guess} {wB wC : WS} (hG : QPC.Guessed s gB gC wB wC)
    (hbox : ∀ i < n, lowerOf lb i ≤ upperOf ub i) (hboxA : ∀ k < m, lowerOf lbA k ≤ upperOf ubA k)
    (hx : ∀ i < n, s.lb i ≤ s.x i ∧ s.x i ≤ s.ub i) (hxA : ∀ k < m, s.lbA k ≤ s.prodA s.x k ∧ s.prodA s.x k ≤ s.ubA k)
    (hg : UsableGuessFar sq fuel s wB wC g lb ub lbA ubA nWSR cputime)
    {o : OutC K} (ho : QPC.hotstart sq fuel s g lb ub lbA ubA nWSR cputime gB gC = .ok o) (hr : o.rv = RET_HOTSTART_STOPPED_UNBOUNDEDNESS) :
    FarUnbounded n m M A g (lowerOf lb) (upperOf ub) (lowerOf lbA) (upperOf ubA) o.s := by
  obtain ⟨l1, u1, e⟩ := h.resumeFar hfar hG hbox hboxA hx hxA hg ho (by rw [hr]; exact ⟨by decide, by decide⟩)
  obtain ⟨e1, e2, e3⟩ := e.reported (Or.inr (e.unbounded hr))
  exact far_unbounded e2 (fun _ _ => rfl) (fun _ _ => rfl) e1 (by rw [e3]; exact hfar.on) (by rw [e3]; exact hfar.grow) (by rw [e3]; exact htol) (e.unbounded hr)

/-! ### C68 -/

/-- A point at infinity is easily told from others. -/
theorem C68_beyond {P : QP K} {x y : Nat → K} (h : P.AtInfinity x y) : P.Beyond INFTY x := by
  rcases h with ⟨i, hi, _, h⟩ | ⟨k, hk, _, h⟩
  · refine Or.inl ⟨i, hi, ?_⟩
    rcases h with h | h
    · exact (le_neg_of_le_neg h).trans (neg_le_abs _)
    · exact h.trans (le_abs_self _)
  · refine Or.inr ⟨k, hk, ?_⟩
    rcases h with h | h
    · exact (le_neg_of_le_neg h).trans (neg_le_abs _)
    · exact h.trans (le_abs_self _)

/-- **C68** (part): as in `C68_hotstart_partial`, for a hotstart with far bounds. -/
theorem C68_hotstart_far_partial {sq : K → K} {fuel n m : Nat} {M A : Nat → Nat → K} {l0 u0 : Nat → K} {s : QPC K}
    (h : SessionC sq fuel n m M A l0 u0 s) (hfar : QPC.FarOptions s.options) {g : Nat → K} {lb ub lbA ubA : Option (Nat → K)} {nWSR : Int}
    {cputime : Option K} (hbox : ∀ i < n, lowerOf lb i ≤ upperOf ub i) (hboxA : ∀ k < m, lowerOf lbA k ≤ upperOf ubA k)
    (hnl : (∀ k < m, l0 k ≤ -INFTY) → ∀ k < m, lowerOf lbA k ≤ -INFTY) (hnu : (∀ k < m, INFTY ≤ u0 k) → ∀ k < m, INFTY ≤ upperOf ubA k)
    (hc : QPC.FarRunClean sq fuel { s with count := s.count + 1 } g lb ub lbA ubA nWSR cputime)
    {o : OutC K} (ho : QPC.hotstart sq fuel s g lb ub lbA ubA nWSR cputime .null .null = .ok o) (hr : o.rv = SUCCESSFUL_RETURN) (ht : o.s.tau = 1) :
    ∃ H' : Nat → Nat → K, (∀ i < n, ∀ j < n, |H' i j - M i j| ≤ EPS) ∧ (QP.Symmetric n H' → QP.PosSemidef n H' →
      (QPC.qp n m H' g (lowerOf lb) (upperOf ub) A (lowerOf lbA) (upperOf ubA)).UnboundedBelow →
      (QPC.qp n m H' g (lowerOf lb) (upperOf ub) A (lowerOf lbA) (upperOf ubA)).AtInfinity o.s.x o.s.y) := by
  obtain ⟨H', a1, a2⟩ := (C34_hotstart_far_partial h hfar hbox hboxA hnl hnu hc ho hr).2 ht
  exact ⟨H', a1, fun hs hp hu => atInfinity_of_unbounded hs hp a2.stationary hu⟩

/-- **C68** (part): the same for a cold start with far bounds. -/
theorem C68_init_far_partial {sq : K → K} (fuel : Nat) {s : QPC K} (hs : QPC.Usable s) (hfar : QPC.FarOptions s.options) {H : Option (Nat → K)}
    {g a : Nat → K} {lb ub lbA ubA : Option (Nat → K)} (ha : QPC.Admissible s (lowerOf lb) (upperOf ub) (lowerOf lbA) (upperOf ubA))
    {M : Nat → Nat → K} (hM : GivenHessian (s.coldData H g a lb ub lbA ubA).toQPB M) (hsym : QP.Symmetric s.nV M)
    (hst : (s.coldData H g a lb ub lbA ubA).SymH) {nWSR : Int} {cputime : Option K} {xOpt yOpt : Option (Nat → K)} {gB gC : Option WS}
    (hc : QPC.StartClean sq (s.coldData H g a lb ub lbA ubA) xOpt yOpt gB gC nWSR cputime)
    (hrun : ∀ s2 c, QPC.StartsAt sq (s.coldData H g a lb ub lbA ubA) xOpt yOpt gB gC nWSR cputime s2 c →
      QPC.FarRunClean sq fuel s2 g (some (lowerOf lb)) (some (upperOf ub)) (some (s.coldData H g a lb ub lbA ubA).lbA)
        (some (s.coldData H g a lb ub lbA ubA).ubA) nWSR c) {o : OutC K}
    (ho : QPC.init sq fuel s H (some g) (some a) lb ub lbA ubA nWSR cputime xOpt yOpt gB gC none = .ok o) (hr : o.rv = SUCCESSFUL_RETURN) (ht : o.s.tau = 1) :
    ∃ H' : Nat → Nat → K, (∀ i < s.nV, ∀ j < s.nV, |H' i j - M i j| ≤ EPS) ∧ (QP.Symmetric s.nV H' → QP.PosSemidef s.nV H' →
      (QPC.qp s.nV s.nC H' g (lowerOf lb) (upperOf ub) (fun k j => a (k * s.nV + j)) (lowerOf lbA) (upperOf ubA)).UnboundedBelow →
      (QPC.qp s.nV s.nC H' g (lowerOf lb) (upperOf ub) (fun k j => a (k * s.nV + j)) (lowerOf lbA) (upperOf ubA)).AtInfinity o.s.x o.s.y) := by
  obtain ⟨H', a1, a2⟩ := (C34_init_far_partial fuel hs hfar ha hM hsym hst hc hrun ho hr).2 ht
  exact ⟨H', a1, fun hs hp hu => atInfinity_of_unbounded hs hp a2.stationary hu⟩

/-- **C68** (part): the same for a hotstart with a guessed working set, without far bounds. -/
theorem C68_guessed_partial {sq : K → K} {fuel n m : Nat} {M A : Nat → Nat → K} {l0 u0 : Nat → K} {s : QPC K}
    (h : SessionC sq fuel n m M A l0 u0 s) (hfar : s.options.enableFarBounds = false) (htol : 0 ≤ s.options.terminationTolerance) {g : Nat → K}
    {lb ub lbA ubA : Option (Nat → K)} {nWSR : Int} {cputime : Option K} {gB gC : QPB.Guess} {wB wC : WS} (hG : QPC.Guessed s gB gC wB wC)
    (hbox : ∀ i < n, lowerOf lb i ≤ upperOf ub i) (hboxA : ∀ k < m, lowerOf lbA k ≤ upperOf ubA k)
    (hx : ∀ i < n, s.lb i ≤ s.x i ∧ s.x i ≤ s.ub i) (hxA : ∀ k < m, s.lbA k ≤ s.prodA s.x k ∧ s.prodA s.x k ≤ s.ubA k)
    (hg : UsableGuess sq m l0 u0 s wB wC g lb ub lbA ubA nWSR cputime)
    {o : OutC K} (ho : QPC.hotstart sq fuel s g lb ub lbA ubA nWSR cputime gB gC = .ok o) (hr : o.rv = SUCCESSFUL_RETURN) (ht : o.s.tau = 1) :
    ∃ H' : Nat → Nat → K, (∀ i < n, ∀ j < n, |H' i j - M i j| ≤ EPS) ∧ (QP.Symmetric n H' → QP.PosSemidef n H' →
      (QPC.qp n m H' g (lowerOf lb) (upperOf ub) A (lowerOf lbA) (upperOf ubA)).UnboundedBelow →
      (QPC.qp n m H' g (lowerOf lb) (upperOf ub) A (lowerOf lbA) (upperOf ubA)).AtInfinity o.s.x o.s.y) := by
  have key : ∃ H' : Nat → Nat → K, (∀ i < n, ∀ j < n, |H' i j - M i j| ≤ EPS) ∧
      (QPC.qp n m H' g (lowerOf lb) (upperOf ub) A (lowerOf lbA) (upperOf ubA)).Stationary o.s.x o.s.y := by
    rcases hg with ⟨h1, h2, h3, h4⟩ | ⟨h1, h2, h3, h4⟩
    · obtain ⟨H', a1, -, a2⟩ := (C34_guessed_general_partial h hG h2 h1 hfar hbox hboxA h4 hx hxA h3 ho hr).2 (Or.inr ⟨ht, htol⟩)
      exact ⟨H', a1, (a2 ht).stationary⟩
    · obtain ⟨H', a1, -, a2⟩ := (C34_guessed_update_partial h hG h2 h1 hfar hbox hboxA h4 hx hxA h3 ho hr).2 (Or.inr ⟨ht, htol⟩)
      exact ⟨H', a1, (a2 ht).stationary⟩
  obtain ⟨H', a1, a2⟩ := key
  exact ⟨H', a1, fun hs hp hu => atInfinity_of_unbounded hs hp a2 hu⟩

/-! ### examples -/
section Runs
open QpOASES.Runs

/-- A hotstart with the default options to a QP without solution: the constraint asks for more than the bounds allow. -/
def farI : Res (OutC ℚ) := hotC far1 [-20,-50] (some [-100,-100]) (some [100,100]) (some [1000]) (some [2000]) .null .null

/-- Five rounds end with the same result, after which the hotstart gives up. -/
theorem farI_infeasible : ∃ o, far1 = .ok o ∧ SessionC rootC 5 2 1 gen0H gen0A (lowerOf (some (vec [-50]))) (upperOf (some (vec [5]))) o.s ∧
    QPC.FarOptions o.s.options ∧ 1 ≤ o.s.options.growFarBounds ∧
    QPC.FarRunClean rootC 5 { o.s with count := o.s.count + 1 } (vec [-20,-50]) (some (vec [-100,-100])) (some (vec [100,100])) (some (vec [1000]))
      (some (vec [2000])) 10 none ∧
    ∃ o', farI = .ok o' ∧ o'.rv = RET_HOTSTART_STOPPED_INFEASIBILITY ∧ o'.s.x 0 = 100 ∧ o'.s.x 1 = 100 := by
  obtain ⟨o, e, _, _, _, _, _, hs⟩ := far1_session
  obtain ⟨o1, e1, h⟩ := of_holds (r := far1) (p := fun o : OutC ℚ => decide (o.s.options.enableFarBounds = true ∧ 0 < o.s.options.initialFarBounds ∧
      0 < o.s.options.growFarBounds ∧ 0 < o.s.options.boundTolerance ∧ 0 < o.s.options.epsDen ∧ 1 ≤ o.s.options.growFarBounds) &&
    decide (QPC.FarRunClean rootC 5 { o.s with count := o.s.count + 1 } (vec [-20,-50]) (some (vec [-100,-100])) (some (vec [100,100])) (some (vec [1000]))
      (some (vec [2000])) 10 none))
    (by decide +kernel)
  rw [e] at e1
  cases e1
  rw [Bool.and_eq_true] at h
  obtain ⟨h1, h2, h3, h4, h5, h6⟩ := of_decide_eq_true h.1
  obtain ⟨o', e', h'⟩ := of_holds (r := farI) (p := fun o' => decide (o'.rv = RET_HOTSTART_STOPPED_INFEASIBILITY ∧ o'.s.x 0 = 100 ∧ o'.s.x 1 = 100))
    (by decide +kernel)
  exact ⟨o, e, hs, ⟨h1, h2, h3, h4, h5⟩, h6, of_decide_eq_true h.2, o', e', of_decide_eq_true h'⟩

/-- A cold start with a constraint whose coefficients are small -/
def farS1 : Res (OutC ℚ) := coldC far0 (some [4,0,0,25]) [-20,-50] [3/1000,4/1000] [-100,-100] [100,100] [-50] [5]
/-- A hotstart to a QP that is infeasible within the first far bounds -/
def farS2 : Res (OutC ℚ) := hotC farS1 [-20,-50] none none (some [10000]) none .null .null

/-- The first round ends with an infeasible QP, the second one succeeds, and the hypotheses of `C34_hotstart_far_partial` are met. -/
theorem farS2_retry : ∃ o, farS1 = .ok o ∧ QPC.FarOptions o.s.options ∧
    QPC.FarRunClean rootC 5 { o.s with count := o.s.count + 1 } (vec [-20,-50]) none none (some (vec [10000])) none 10 none ∧
    ∃ o', farS2 = .ok o' ∧ o'.rv = SUCCESSFUL_RETURN ∧ o'.s.tau = 1 ∧ 1000000 < o'.s.x 0 ∧ 3/1000 * o'.s.x 0 + 4/1000 * o'.s.x 1 = 10000 := by
  obtain ⟨o, e, h⟩ := of_holds (r := farS1) (p := fun o : OutC ℚ => decide (o.s.options.enableFarBounds = true ∧ 0 < o.s.options.initialFarBounds ∧
      0 < o.s.options.growFarBounds ∧ 0 < o.s.options.boundTolerance ∧ 0 < o.s.options.epsDen) &&
    decide (QPC.FarRunClean rootC 5 { o.s with count := o.s.count + 1 } (vec [-20,-50]) none none (some (vec [10000])) none 10 none))
    (by decide +kernel)
  rw [Bool.and_eq_true] at h
  obtain ⟨h1, h2, h3, h4, h5⟩ := of_decide_eq_true h.1
  obtain ⟨o', e', h'⟩ := of_holds (r := farS2) (p := fun o' => decide (o'.rv = SUCCESSFUL_RETURN ∧ o'.s.tau = 1 ∧ 1000000 < o'.s.x 0 ∧
      3/1000 * o'.s.x 0 + 4/1000 * o'.s.x 1 = 10000))
    (by decide +kernel)
  exact ⟨o, e, ⟨h1, h2, h3, h4, h5⟩, of_decide_eq_true h.2, o', e', of_decide_eq_true h'⟩

/-- A session with a Hessian that is only semidefinite, and the default options -/
def farU0 : QPC ℚ := startC 2 1 HST_SEMIDEF Options.setToDefault
def farU1 : Res (OutC ℚ) := coldC farU0 (some [4,0,0,0]) [-20,1] [3,4] [0,0] [100,100] [-50] [1000]
def farU0c : QPC ℚ := farU0.coldData (some (vec [4,0,0,0])) (vec [-20,1]) (vec [3,4]) (some (vec [0,0])) (some (vec [100,100])) (some (vec [-50])) (some (vec [1000]))
/-- The second variable, which has no curvature, gets a negative gradient, and there are no upper limits. -/
def farU2 : Res (OutC ℚ) := hotC farU1 [-20,-1] (some [0,0]) none (some [-50]) none .null .null

theorem farU1_session : ∃ o, farU1 = .ok o ∧ o.rv = SUCCESSFUL_RETURN ∧
    SessionC rootC 5 2 1 semH gen0A (lowerOf (some (vec [-50]))) (upperOf (some (vec [1000]))) o.s := by
  obtain ⟨o, e, h⟩ := of_holds (r := farU1) (p := fun o => decide (o.rv = SUCCESSFUL_RETURN)) (by decide +kernel)
  have h1 := of_decide_eq_true h
  refine ⟨o, e, h1, SessionC.initFar (s := farU0) (H := some (vec [4,0,0,0])) (g := vec [-20,1]) (a := vec [3,4]) (lb := some (vec [0,0])) (ub := some (vec [100,100]))
    (lbA := some (vec [-50])) (ubA := some (vec [1000])) (.fresh 2 1 HST_SEMIDEF _ Options.setToDefault) rfl rfl
    ⟨by decide +kernel, by decide +kernel, by decide +kernel, by decide +kernel, by decide +kernel⟩ rfl rfl rfl ?_
    ⟨fun h => (by cases h), fun _ => ⟨fun h => (by cases h), rfl⟩, fun h => (by cases h)⟩ semH_symmetric ?_ ?_
    (startsAt_all rootC farU0c none none none none 10 none ?_) e (Or.inl h1)⟩
  · refine ⟨⟨?_, ?_, ?_, Or.inl ?_, ?_, ?_⟩, ?_, ?_, ?_, ?_, ?_, ?_, ?_⟩
    all_goals decide +kernel
  · intro H h
    obtain rfl : semH = H := Option.some.inj h
    exact semH_symmetric
  · show QPC.StartClean rootC farU0c none none none none 10 none
    decide +kernel
  · show ∀ s', prepareInitialQP rootC { farU0c with toQPB := (farU0c.toQPB.startClock none).2 } none none none none none 10 none = .ok (.ok s') →
      ∀ s2, setupInitialCholesky rootC { s' with toQPB := { (s'.toQPB.stopClock none (farU0c.toQPB.startClock none).1).2 with
        count := (s'.toQPB.stopClock none (farU0c.toQPB.startClock none).1).2.count + 1 } } = .ok (SUCCESSFUL_RETURN, s2) →
      FarRunClean rootC 5 s2 (vec [-20,1]) (some (vec [0,0])) (some (vec [100,100])) (some farU0c.lbA) (some farU0c.ubA) 10 none
    decide +kernel

/-- The hotstart reports unboundedness with the second variable beyond `10^17`. -/
theorem farU2_unbounded : ∃ o, farU1 = .ok o ∧ QPC.FarOptions o.s.options ∧ o.s.options.boundTolerance ≤ 1 ∧
    QPC.FarRunClean rootC 5 { o.s with count := o.s.count + 1 } (vec [-20,-1]) (some (vec [0,0])) none (some (vec [-50])) none 10 none ∧
    ∃ o', farU2 = .ok o' ∧ o'.rv = RET_HOTSTART_STOPPED_UNBOUNDEDNESS ∧ 100000000000000000 < o'.s.x 1 ∧
      FarUnbounded 2 1 semH gen0A (vec [-20,-1]) (vec [0,0]) (fun _ => INFTY) (vec [-50]) (fun _ => INFTY) o'.s := by
  obtain ⟨o, e, _, hs⟩ := farU1_session
  obtain ⟨o1, e1, h⟩ := of_holds (r := farU1) (p := fun o : OutC ℚ => decide (o.s.options.enableFarBounds = true ∧ 0 < o.s.options.initialFarBounds ∧
      0 < o.s.options.growFarBounds ∧ 0 < o.s.options.boundTolerance ∧ 0 < o.s.options.epsDen ∧ o.s.options.boundTolerance ≤ 1) &&
    decide (QPC.FarRunClean rootC 5 { o.s with count := o.s.count + 1 } (vec [-20,-1]) (some (vec [0,0])) none (some (vec [-50])) none 10 none))
    (by decide +kernel)
  rw [e] at e1
  cases e1
  rw [Bool.and_eq_true] at h
  obtain ⟨h1, h2, h3, h4, h5, h6⟩ := of_decide_eq_true h.1
  obtain ⟨o', e', h'⟩ := of_holds (r := farU2) (p := fun o' => decide (o'.rv = RET_HOTSTART_STOPPED_UNBOUNDEDNESS ∧ 100000000000000000 < o'.s.x 1))
    (by decide +kernel)
  obtain ⟨r1, r2⟩ := of_decide_eq_true h'
  refine ⟨o, e, ⟨h1, h2, h3, h4, h5⟩, h6, of_decide_eq_true h.2, o', e', r1, r2, ?_⟩
  unfold farU2 hotC at e'
  rw [e] at e'
  exact C67_hotstart_far_partial hs (lb := some (vec [0,0])) (ub := none) (lbA := some (vec [-50])) (ubA := none) ⟨h1, h2, h3, h4, h5⟩ h6 (by decide +kernel)
    (by decide +kernel) (of_decide_eq_true h.2) e' r1

/-! #### cold starts and guesses -/

def farJ : Res (OutC ℚ) := coldC far0 (some [4,0,0,25]) [-20,-50] [3,4] [-100,-100] [100,100] [1000] [2000]
def farJ0c : QPC ℚ := far0.coldData (some (vec [4,0,0,25])) (vec [-20,-50]) (vec [3,4]) (some (vec [-100,-100])) (some (vec [100,100])) (some (vec [1000]))
  (some (vec [2000]))

/-- A cold start that meets the hypotheses of `C66_init_far_partial` -/
example : QPC.StartClean rootC farJ0c none none none none 10 none ∧
    (∀ s2 c, QPC.StartsAt rootC farJ0c none none none none 10 none s2 c →
      QPC.FarRunClean rootC 5 s2 (vec [-20,-50]) (some (vec [-100,-100])) (some (vec [100,100])) (some farJ0c.lbA) (some farJ0c.ubA) 10 c) ∧
    ∃ o, farJ = .ok o ∧ o.rv = RET_INIT_FAILED_INFEASIBILITY := by
  obtain ⟨o, e, h⟩ := of_holds (r := farJ) (p := fun o => decide (o.rv = RET_INIT_FAILED_INFEASIBILITY)) (by decide +kernel)
  refine ⟨by decide +kernel, startsAt_all rootC farJ0c none none none none 10 none ?_, o, e, of_decide_eq_true h⟩
  show ∀ s', prepareInitialQP rootC { farJ0c with toQPB := (farJ0c.toQPB.startClock none).2 } none none none none none 10 none = .ok (.ok s') →
    ∀ s2, setupInitialCholesky rootC { s' with toQPB := { (s'.toQPB.stopClock none (farJ0c.toQPB.startClock none).1).2 with
      count := (s'.toQPB.stopClock none (farJ0c.toQPB.startClock none).1).2.count + 1 } } = .ok (SUCCESSFUL_RETURN, s2) →
    FarRunClean rootC 5 s2 (vec [-20,-50]) (some (vec [-100,-100])) (some (vec [100,100])) (some farJ0c.lbA) (some farJ0c.ubA) 10 none
  decide +kernel

def farG : Res (OutC ℚ) := hotC far1 [-20,-50] (some [-100,-100]) (some [100,100]) (some [1000]) (some [2000])
  (.other (guessWS [ST_INACTIVE, ST_INACTIVE])) (.other (guessWS [ST_UPPER]))

/-- A hotstart with a guess that meets the hypotheses of `C66_guessed_far_partial` -/
theorem farG_infeasible : ∃ o, far1 = .ok o ∧ (∀ i : Nat, i < 2 → o.s.lb i ≤ o.s.x i ∧ o.s.x i ≤ o.s.ub i) ∧
    (∀ k : Nat, k < 1 → o.s.lbA k ≤ o.s.prodA o.s.x k ∧ o.s.prodA o.s.x k ≤ o.s.ubA k) ∧
    UsableGuessFar rootC 5 o.s (guessWS [ST_INACTIVE, ST_INACTIVE]) (guessWS [ST_UPPER]) (vec [-20,-50]) (some (vec [-100,-100])) (some (vec [100,100]))
      (some (vec [1000])) (some (vec [2000])) 10 none ∧
    ∃ o', farG = .ok o' ∧ o'.rv = RET_HOTSTART_STOPPED_INFEASIBILITY := by
  obtain ⟨o, e, h⟩ := of_holds (r := far1) (p := fun o : OutC ℚ => decide ((∀ i : Nat, i < 2 → o.s.lb i ≤ o.s.x i ∧ o.s.x i ≤ o.s.ub i) ∧
      (∀ k : Nat, k < 1 → o.s.lbA k ≤ o.s.prodA o.s.x k ∧ o.s.prodA o.s.x k ≤ o.s.ubA k) ∧
      o.s.shallRefactorise (guessWS [ST_INACTIVE, ST_INACTIVE]) (guessWS [ST_UPPER]) = false ∧
      QPC.UpdateOK o.s (guessWS [ST_INACTIVE, ST_INACTIVE]) (guessWS [ST_UPPER]) ∧
      QPC.UpdatedClean rootC (o.s.guessStart none) (guessWS [ST_INACTIVE, ST_INACTIVE]) (guessWS [ST_UPPER])) &&
    decide (QPC.FarAfter rootC 5 o.s (guessWS [ST_INACTIVE, ST_INACTIVE]) (guessWS [ST_UPPER]) (vec [-20,-50]) (some (vec [-100,-100])) (some (vec [100,100]))
      (some (vec [1000])) (some (vec [2000])) 10 none)) (by decide +kernel)
  rw [Bool.and_eq_true] at h
  obtain ⟨h1, h2, h3, h4, h5⟩ := of_decide_eq_true h.1
  obtain ⟨o', e', h'⟩ := of_holds (r := farG) (p := fun o' => decide (o'.rv = RET_HOTSTART_STOPPED_INFEASIBILITY)) (by decide +kernel)
  exact ⟨o, e, h1, h2, ⟨Or.inr ⟨h3, h4, h5⟩, of_decide_eq_true h.2⟩, o', e', of_decide_eq_true h'⟩

end Runs

end QpOASES.Props
