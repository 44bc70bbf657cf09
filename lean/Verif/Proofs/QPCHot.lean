import Verif.Proofs.QPCSolve
import Verif.Proofs.QPBInit

/-!
Complete calls of the solver for general constraints: `solveQP` and `hotstart` without far bounds and regularisation.
-/
namespace QpOASES
open Finset Props SubjectToStatus SubjectToType ReturnValue HessianType QProblemStatus
open QPB (lowerOf upperOf)

set_option linter.unusedSectionVars false

variable {K : Type} [Field K] [LinearOrder K] [IsStrictOrderedRing K]

namespace QPC

/-- The state with the types of its bounds set for new limits -/
def retyped (s : QPC K) (lbNew ubNew : Option (Nat → K)) : QPC K := { s with toQPB := s.toQPB.setupSubjectToType lbNew ubNew }

/-- New limits keep the invariant if no variable becomes or ceases to be an equality in a way that its multiplier or status forbids, and
the point respects limits that start to be observed. -/
theorem Good.retype {s : QPC K} (h : s.Good) {lbNew ubNew : Option (Nat → K)}
    (heq : ∀ i < s.nV, s.toQPB.typeOf lbNew ubNew i = ST_EQUALITY → s.bounds.status i ≠ ST_INACTIVE ∧ s.lb i = s.ub i)
    (hne : ∀ i < s.nV, s.toQPB.typeOf lbNew ubNew i ≠ ST_EQUALITY → s.bounds.type i = ST_EQUALITY →
      (s.bounds.status i = ST_LOWER → 0 ≤ s.y i) ∧ (s.bounds.status i = ST_UPPER → s.y i ≤ 0))
    (hlow : (s.retyped lbNew ubNew).bounds.noLower = false → ∀ i < s.nV, s.bounds.status i = ST_INACTIVE → s.lb i ≤ s.x i)
    (hup : (s.retyped lbNew ubNew).bounds.noUpper = false → ∀ i < s.nV, s.bounds.status i = ST_INACTIVE → s.x i ≤ s.ub i) :
    (s.retyped lbNew ubNew).Good := by
  have hty : ∀ i < s.nV, (s.retyped lbNew ubNew).bounds.type i = s.toQPB.typeOf lbNew ubNew i := fun i hi => if_pos hi
  have h1 := h.opt.bounds
  have hw := h.facs.shape.okB
  refine ⟨h.facs.congr' ⟨hw.perm, hw.free, hw.fixed⟩ rfl rfl h.facs.shape.okC rfl rfl rfl rfl rfl rfl rfl rfl rfl rfl id,
    ⟨h.opt.stat, ⟨?_, ?_, ?_, h1.box, ?_⟩, h.opt.cons⟩, h.ax⟩
  · intro i hi hs
    have hi : i < s.nV := hi
    rw [hty i hi]
    refine ⟨(h1.lower i hi hs).1, fun hh => ?_⟩
    by_cases he : s.bounds.type i = ST_EQUALITY
    · exact (hne i hi hh he).1 hs
    · exact (h1.lower i hi hs).2 he
  · intro i hi hs
    have hi : i < s.nV := hi
    rw [hty i hi]
    refine ⟨(h1.upper i hi hs).1, fun hh => ?_⟩
    by_cases he : s.bounds.type i = ST_EQUALITY
    · exact (hne i hi hh he).2 hs
    · exact (h1.upper i hi hs).2 he
  · intro i hi hs
    exact ⟨(h1.inactive i hi hs).1, fun _ => ⟨fun hh => hlow hh i hi hs, fun hh => hup hh i hi hs⟩⟩
  · intro i hi hs
    have hi : i < s.nV := hi
    rw [hty i hi] at hs
    exact heq i hi hs

/-! ### new limits -/

/-- Removing bound `i` because its limit has become infinite is exact. -/
structure DropClean (sq : K → K) (s : QPC K) (i : Nat) : Prop where
  type : s.bounds.type i ≠ ST_EQUALITY
  curv : s.options.enableNZCTests = true → s.Curved true i
  rem : s.CleanRemoveB sq i false

theorem dropInfinite_spec {sq : K → K} {s s' : QPC K} {c : Prop} [Decidable c] {i : Nat} (h : s.Good) (hc : c → DropClean sq s i)
    (hact : c → i ∈ s.bounds.fixed) (e : dropInfinite sq c i s = .ok (SUCCESSFUL_RETURN, s')) :
    s'.Good ∧ Same s' s ∧ s'.x = s.x ∧ s'.lb = s.lb ∧ s'.ub = s.ub ∧ (¬ c → s' = s) ∧ (c → s'.bounds.status i = ST_INACTIVE) := by
  unfold dropInfinite at e
  by_cases hcc : c
  · rw [if_pos hcc, Res.bind_eq_ok] at e
    obtain ⟨⟨r, s1⟩, e1, e⟩ := e
    dsimp only at e
    split at e
    · next hr => simp only [Res.ok.injEq, Prod.mk.injEq] at e; exact absurd e.1 hr
    next hr =>
    rw [not_not] at hr
    subst hr
    simp only [Res.ok.injEq, Prod.mk.injEq, true_and] at e
    have hD := hc hcc
    have hk := hact hcc
    have key : removeBoundUpdate sq s i true false none = .ok (SUCCESSFUL_RETURN, s1) := by
      unfold removeBound at e1
      split at e1
      · simp only [Res.ok.injEq, Prod.mk.injEq] at e1; exact absurd e1.1 (by decide)
      split at e1
      · simp only [Res.ok.injEq, Prod.mk.injEq] at e1; exact absurd e1.1 (by decide)
      split at e1
      · next hz =>
        rw [Res.bind_eq_ok] at e1
        obtain ⟨⟨r, s2, c'⟩, e2, e1⟩ := e1
        obtain ⟨rfl, rfl⟩ := (hD.curv hz).stays e2
        dsimp only at e1
        split at e1
        · next hr => simp only [Res.ok.injEq, Prod.mk.injEq] at e1; exact absurd e1.1 hr
        · exact e1
      · exact e1
    obtain ⟨f1, f2 | ⟨hf, _⟩⟩ := removeBoundUpdate_spec h.facs hk hD.rem key
    · have hlt : i < s.nV := by rw [← h.facs.shape.nB]; exact h.facs.shape.okB.lt_fixed hk
      have hS1 := f2.same
      have hA1 := f2.ax h.ax
      obtain ⟨T, Q, R, fl, rfl⟩ := f2
      subst e
      refine ⟨⟨f1.congr rfl rfl rfl rfl rfl rfl rfl rfl rfl rfl id, ⟨fun j hj => ?_, ?_, ?_⟩, ?_⟩, ?_, rfl, rfl, rfl, fun hn => absurd hcc hn,
        fun _ => updA_same _ _ _⟩
      · have hj : j < s.nV := hj
        have := h.opt.stat j hj
        show ∑ k ∈ range s.nV, s.Heff j k * s.x k + updA s.g i (s.g i - s.y i) j = updA s.y i 0 j +
          ∑ k ∈ range s.nC, s.A k j * updA s.y i 0 (s.nV + k)
        have e2 : ∀ k, updA s.y i 0 (s.nV + k) = s.y (s.nV + k) := fun k => updA_ne _ _ (by omega)
        simp only [e2]
        by_cases hji : j = i
        · subst hji
          rw [updA_same, updA_same]
          linear_combination this
        · rw [updA_ne _ _ hji, updA_ne _ _ hji]; exact this
      · exact h.opt.bounds.remove h.facs.shape.okB h.facs.shape.nB hk hD.type (updA_same _ _ _) (fun j _ hj => updA_ne _ _ hj)
      · exact h.opt.cons.congr (fun _ _ => rfl) (fun _ _ => rfl) (fun _ _ => rfl) (fun k _ => updA_ne _ _ (show s.nV + k ≠ i by omega))
      · exact hA1
      · exact ⟨hS1.nV, hS1.nC, hS1.A, hS1.H, hS1.hess, hS1.gen, hS1.typeB, hS1.typeC, hS1.options, hS1.noLowerB, hS1.noUpperB, hS1.noLowerC,
          hS1.noUpperC, hS1.reg, hS1.frame⟩
    · cases hf
  · rw [if_neg hcc] at e
    simp only [Res.ok.injEq, Prod.mk.injEq, true_and] at e
    subst e
    exact ⟨h, Same.refl _, rfl, rfl, rfl, fun _ => rfl, fun hh => absurd hh hcc⟩

/-- Adapting bound `i` to new limits is exact. -/
structure LimitClean (sq : K → K) (l u : Nat → K) (i : Nat) (s : QPC K) : Prop where
  dropL : l i ≤ -INFTY → s.bounds.status i = ST_LOWER → DropClean sq s i
  dropU : u i ≥ INFTY → s.bounds.status i = ST_UPPER → DropClean sq s i
  within : s.lb i ≤ s.x i ∧ s.x i ≤ s.ub i
  finL : s.bounds.type i = ST_EQUALITY ∨ s.bounds.status i = ST_LOWER → l i > -INFTY → ¬ s.lb i ≤ -INFTY
  finU : s.bounds.type i = ST_EQUALITY ∨ s.bounds.status i = ST_UPPER → u i < INFTY → ¬ s.ub i ≥ INFTY

/-- Moving a limit that is not active -/
theorem Good.moveLower {s : QPC K} (h : s.Good) {i : Nat} {a : K} (h1 : s.bounds.status i ≠ ST_LOWER) (h2 : s.bounds.type i ≠ ST_EQUALITY)
    (h3 : a ≤ s.x i) (h4 : s.x i ≤ s.ub i) : ({ s with lb := updA s.lb i a } : QPC K).Good := by
  refine ⟨h.facs.congr rfl rfl rfl rfl rfl rfl rfl rfl rfl rfl id, ⟨h.opt.stat, ?_, h.opt.cons⟩, h.ax⟩
  have hb := h.opt.bounds
  show SideOK s.bounds (fun _ => True) s.x (updA s.lb i a) s.ub s.y s.nV
  refine ⟨fun j hj hs => ?_, hb.upper, fun j hj hs => ?_, fun j hj => ?_, fun j hj ht => ?_⟩
  · have hji : j ≠ i := fun e => h1 (e ▸ hs)
    rw [updA_ne _ _ hji]; exact hb.lower j hj hs
  · by_cases hji : j = i
    · subst hji
      rw [updA_same]
      exact ⟨(hb.inactive j hj hs).1, fun _ => ⟨fun _ => h3, fun _ => h4⟩⟩
    · rw [updA_ne _ _ hji]; exact hb.inactive j hj hs
  · by_cases hji : j = i
    · subst hji; rw [updA_same]; exact h3.trans h4
    · rw [updA_ne _ _ hji]; exact hb.box j hj
  · have hji : j ≠ i := fun e => h2 (e ▸ ht)
    rw [updA_ne _ _ hji]; exact hb.eq j hj ht

theorem Good.moveUpper {s : QPC K} (h : s.Good) {i : Nat} {a : K} (h1 : s.bounds.status i ≠ ST_UPPER) (h2 : s.bounds.type i ≠ ST_EQUALITY)
    (h3 : s.x i ≤ a) (h4 : s.lb i ≤ s.x i) : ({ s with ub := updA s.ub i a } : QPC K).Good := by
  refine ⟨h.facs.congr rfl rfl rfl rfl rfl rfl rfl rfl rfl rfl id, ⟨h.opt.stat, ?_, h.opt.cons⟩, h.ax⟩
  have hb := h.opt.bounds
  show SideOK s.bounds (fun _ => True) s.x s.lb (updA s.ub i a) s.y s.nV
  refine ⟨hb.lower, fun j hj hs => ?_, fun j hj hs => ?_, fun j hj => ?_, fun j hj ht => ?_⟩
  · have hji : j ≠ i := fun e => h1 (e ▸ hs)
    rw [updA_ne _ _ hji]; exact hb.upper j hj hs
  · by_cases hji : j = i
    · subst hji
      rw [updA_same]
      exact ⟨(hb.inactive j hj hs).1, fun _ => ⟨fun _ => h4, fun _ => h3⟩⟩
    · rw [updA_ne _ _ hji]; exact hb.inactive j hj hs
  · by_cases hji : j = i
    · subst hji; rw [updA_same]; exact h4.trans h3
    · rw [updA_ne _ _ hji]; exact hb.box j hj
  · have hji : j ≠ i := fun e => h2 (e ▸ ht)
    rw [updA_ne _ _ hji]; exact hb.eq j hj ht

theorem updateLimit_spec {sq : K → K} {s s' : QPC K} {l u : Nat → K} {i : Nat} (h : s.Good) (hi : i < s.nV) (hr : 0 ≤ s.options.boundRelaxation)
    (hc : LimitClean sq l u i s) (e : updateLimit sq l u i s = .ok (SUCCESSFUL_RETURN, s')) : s'.Good ∧ Same s' s := by
  unfold updateLimit at e
  have hlt : i < s.bounds.n := by rw [h.facs.shape.nB]; exact hi
  rw [WS.getStatus_of_lt hlt, Res.bind_eq_ok] at e
  obtain ⟨⟨r1, s1⟩, e1, e⟩ := e
  dsimp only at e
  split at e
  · next hr => simp only [Res.ok.injEq, Prod.mk.injEq] at e; exact absurd e.1 hr
  next hr1 =>
  rw [not_not] at hr1
  subst hr1
  obtain ⟨g1, S1, x1, l1, u1, n1, p1⟩ := dropInfinite_spec h (fun hh => hc.dropL hh.1 hh.2)
    (fun hh => h.facs.shape.okB.mem_fixed_iff.2 ⟨hlt, Or.inl hh.2⟩) e1
  have hlt1 : i < s1.bounds.n := by rw [g1.facs.shape.nB, S1.nV]; exact hi
  rw [WS.getStatus_of_lt hlt1, Res.bind_eq_ok] at e
  obtain ⟨⟨r2, s2⟩, e2, e⟩ := e
  dsimp only at e
  split at e
  · next hr => simp only [Res.ok.injEq, Prod.mk.injEq] at e; exact absurd e.1 hr
  next hr2 =>
  rw [not_not] at hr2
  subst hr2
  have hsame1 : s1.bounds.status i = ST_UPPER → s1 = s := by
    intro hs
    refine n1 fun hh => ?_
    rw [p1 hh] at hs; cases hs
  obtain ⟨g2, S2, x2, l2, u2, n2, p2⟩ := dropInfinite_spec g1 (fun hh => by
      have := hsame1 hh.2
      subst this
      exact hc.dropU hh.1 hh.2) (fun hh => g1.facs.shape.okB.mem_fixed_iff.2 ⟨hlt1, Or.inr hh.2⟩) e2
  have hS := S2.trans S1
  -- an active bound has not been touched
  have hact : s2.bounds.status i ≠ ST_INACTIVE → s2 = s := by
    intro hs
    have a2 : s2 = s1 := n2 fun hh => hs (p2 hh)
    have a1 : s1 = s := n1 fun hh => hs (a2 ▸ p1 hh)
    rw [a2, a1]
  have hw := hc.within
  rw [← x1, ← l1, ← u1, ← x2, ← l2, ← u2] at hw
  simp only [Res.ok.injEq, Prod.mk.injEq, true_and] at e
  have hrel : 0 ≤ s2.options.boundRelaxation := by rw [hS.options]; exact hr
  -- lower limit
  obtain ⟨g3, S3, w3, st3, ub3⟩ : (if l i > -INFTY ∧ s2.lb i ≤ -INFTY then { s2 with lb := updA s2.lb i (s2.x i - s2.options.boundRelaxation) } else s2 : QPC K).Good ∧
      Same (if l i > -INFTY ∧ s2.lb i ≤ -INFTY then { s2 with lb := updA s2.lb i (s2.x i - s2.options.boundRelaxation) } else s2 : QPC K) s2 ∧
      (if l i > -INFTY ∧ s2.lb i ≤ -INFTY then { s2 with lb := updA s2.lb i (s2.x i - s2.options.boundRelaxation) } else s2 : QPC K).lb i ≤ s2.x i ∧
      (if l i > -INFTY ∧ s2.lb i ≤ -INFTY then { s2 with lb := updA s2.lb i (s2.x i - s2.options.boundRelaxation) } else s2 : QPC K).bounds = s2.bounds ∧
      (if l i > -INFTY ∧ s2.lb i ≤ -INFTY then { s2 with lb := updA s2.lb i (s2.x i - s2.options.boundRelaxation) } else s2 : QPC K).ub = s2.ub ∧
      (if l i > -INFTY ∧ s2.lb i ≤ -INFTY then { s2 with lb := updA s2.lb i (s2.x i - s2.options.boundRelaxation) } else s2 : QPC K).x = s2.x := by
    split
    · next hc1 =>
      have h1 : s2.bounds.status i ≠ ST_LOWER := by
        intro hs
        have := hact (by rw [hs]; decide)
        subst this
        exact hc.finL (Or.inr hs) hc1.1 hc1.2
      have h2 : s2.bounds.type i ≠ ST_EQUALITY := by
        intro ht
        refine hc.finL (Or.inl ?_) hc1.1 ?_
        · rw [← hS.typeB]; exact ht
        · rw [← l1, ← l2]; exact hc1.2
      refine ⟨g2.moveLower h1 h2 (by linarith) hw.2, ⟨rfl, rfl, rfl, rfl, rfl, rfl, rfl, rfl, rfl, rfl, rfl, rfl, rfl, rfl, rfl⟩, ?_, rfl, rfl, rfl⟩
      exact (updA_same _ _ _).le.trans (by linarith)
    · exact ⟨g2, Same.refl _, hw.1, rfl, rfl, rfl⟩
  generalize (if l i > -INFTY ∧ s2.lb i ≤ -INFTY then { s2 with lb := updA s2.lb i (s2.x i - s2.options.boundRelaxation) } else s2 : QPC K) = s3 at *
  subst e
  split
  · next hc1 =>
    have hst : s3.bounds.status i ≠ ST_UPPER := by
      rw [st3]
      intro hs
      have := hact (by rw [hs]; decide)
      subst this
      refine hc.finU (Or.inr hs) hc1.1 ?_
      rw [← ub3.1]; exact hc1.2
    have hty : s3.bounds.type i ≠ ST_EQUALITY := by
      rw [st3]
      intro ht
      refine hc.finU (Or.inl ?_) hc1.1 ?_
      · rw [← hS.typeB]; exact ht
      · rw [← u1, ← u2, ← ub3.1]; exact hc1.2
    have ho : s3.options = s2.options := S3.options
    refine ⟨g3.moveUpper hst hty (by rw [ho]; linarith) (by rw [ub3.2]; exact w3), ?_⟩
    exact Same.trans (b := s3) ⟨rfl, rfl, rfl, rfl, rfl, rfl, rfl, rfl, rfl, rfl, rfl, rfl, rfl, rfl, rfl⟩ (S3.trans hS)
  · exact ⟨g3, S3.trans hS⟩

/-- Each step of a loop is clean. -/
def SeqClean (c : Nat → QPC K → Prop) (f : Nat → QPC K → Res (ReturnValue × QPC K)) : (m i : Nat) → QPC K → Prop
  | 0, _, _ => True
  | m+1, i, s => c i s ∧ ∀ s', f i s = .ok (SUCCESSFUL_RETURN, s') → SeqClean c f m (i+1) s'

theorem seqLoop_spec {c : Nat → QPC K → Prop} {f : Nat → QPC K → Res (ReturnValue × QPC K)} {P : QPC K → QPC K → Prop}
    (hrefl : ∀ s, P s s) (htrans : ∀ a b d, P a b → P b d → P a d) {n : Nat} (I : QPC K → Prop)
    (step : ∀ i s s', i < n → I s → c i s → f i s = .ok (SUCCESSFUL_RETURN, s') → I s' ∧ P s' s) :
    ∀ (m i : Nat) (s s' : QPC K), i + m ≤ n → I s → SeqClean c f m i s → seqLoop f m i s = .ok (SUCCESSFUL_RETURN, s') → I s' ∧ P s' s := by
  intro m
  induction m with
  | zero =>
    intro i s s' _ h _ e
    simp only [seqLoop, Res.ok.injEq, Prod.mk.injEq, true_and] at e
    subst e
    exact ⟨h, hrefl _⟩
  | succ m ih =>
    intro i s s' hle h hc e
    rw [seqLoop, Res.bind_eq_ok] at e
    obtain ⟨⟨r, s1⟩, e1, e⟩ := e
    dsimp only at e
    split at e
    · next hr => simp only [Res.ok.injEq, Prod.mk.injEq] at e; exact absurd e.1 hr
    next hr =>
    rw [not_not] at hr
    subst hr
    obtain ⟨k1, k2⟩ := step i s s1 (by omega) h hc.1 e1
    obtain ⟨j1, j2⟩ := ih (i+1) s1 s' (by omega) k1 (hc.2 s1 e1) e
    exact ⟨j1, htrans _ _ _ j2 k2⟩

theorem updateEquality_spec {sq : K → K} {s : QPC K} {i : Nat} (h : s.Good) (hi : i < s.nV) : updateEquality sq i s = .ok (SUCCESSFUL_RETURN, s) := by
  unfold updateEquality
  dsimp only
  by_cases ht : s.bounds.type i = ST_EQUALITY
  · rw [if_pos ht]
    obtain ⟨ha, hlu⟩ := h.opt.bounds.eq i hi ht
    have hlt : i < s.bounds.n := by rw [h.facs.shape.nB]; exact hi
    have hx : s.x i = s.lb i := by
      rcases h.facs.shape.okB.status_cases hlt with hs | hs | hs
      · exact absurd hs ha
      · exact (h.opt.bounds.lower i hi hs).1
      · rw [hlu]; exact (h.opt.bounds.upper i hi hs).1
    rw [if_neg (by rw [WS.getStatus_of_lt hlt]; exact ha), updA_self hx.symm, updA_self (hlu ▸ hx.symm)]
  · rw [if_neg ht]

theorem updateEqualities_spec {sq : K → K} {s : QPC K} (h : s.Good) :
    ∀ (m i : Nat), i + m ≤ s.nV → seqLoop (updateEquality sq) m i s = .ok (SUCCESSFUL_RETURN, s) := by
  intro m
  induction m with
  | zero => intro i _; rfl
  | succ m ih =>
    intro i hi
    rw [seqLoop, updateEquality_spec h (by omega), Res.bind_ok]
    dsimp only
    rw [if_neg (by simp)]
    exact ih (i+1) (by omega)

theorem newDiag_rv {sq : K → K} {s : QPC K} {nZ : Nat} {rho2 : K} {a b : Bool} {r : ReturnValue} {s' : QPC K}
    (e : newDiag sq s nZ rho2 a b = some (r, s')) : r ≠ RET_MAX_NWSR_REACHED := by
  rintro rfl
  unfold newDiag at e
  dsimp only at e
  split at e
  · split at e <;> cases e
  · split at e
    · split at e
      · cases e
      · split at e <;> cases e
    · cases e

theorem flipBound_rv {s : QPC K} {i : Nat} {s' : QPC K} : s.flipBound i ≠ (RET_MAX_NWSR_REACHED, s') := by
  intro e
  unfold flipBound at e
  dsimp only at e
  split at e <;> cases e

theorem removeBoundUpdate_rv {sq : K → K} {s : QPC K} {i : Nat} {u a : Bool} {c : Option Change} {s' : QPC K} :
    removeBoundUpdate sq s i u a c ≠ .ok (RET_MAX_NWSR_REACHED, s') := by
  intro e
  unfold removeBoundUpdate at e
  generalize (if s.options.enableFlippingBounds = true ∧ a = true ∧ c.isNone = true then s.saveFlip else s) = s at e
  dsimp only at e
  split at e
  · rw [Res.bind_eq_ok] at e
    obtain ⟨o, _, e⟩ := e
    cases o with
    | none => cases e
    | some p =>
      dsimp only at e
      split at e
      · simp only [Res.ok.injEq] at e
        exact flipBound_rv e
      · next r s1 h1 =>
        split at e
        · simp only [Res.ok.injEq, Prod.mk.injEq] at e
          exact newDiag_rv h1 e.1
        · cases c with
          | none => cases e
          | some c =>
            dsimp only at e
            rw [Res.bind_eq_ok] at e
            obtain ⟨_, _, e⟩ := e
            cases e
  · cases e

theorem removeBound_rv {sq : K → K} {s : QPC K} {i : Nat} {u a n : Bool} {s' : QPC K} :
    removeBound sq s i u a n ≠ .ok (RET_MAX_NWSR_REACHED, s') := by
  intro e
  unfold removeBound at e
  split at e
  · cases e
  split at e
  · cases e
  split at e
  · rw [Res.bind_eq_ok] at e
    obtain ⟨⟨r, s1, c⟩, e1, e⟩ := e
    dsimp only at e
    split at e
    · simp only [Res.ok.injEq, Prod.mk.injEq] at e
      unfold ensureNonzeroCurvature at e1
      dsimp only at e1
      rw [if_pos rfl, Res.bind_eq_ok] at e1
      obtain ⟨o, _, e1⟩ := e1
      cases o with
      | error _ => cases e1
      | ok d =>
        dsimp only at e1
        split at e1
        · rw [Res.bind_eq_ok] at e1
          obtain ⟨⟨sg, c'⟩, _, e1⟩ := e1
          dsimp only at e1
          split at e1 <;> (simp only [Res.ok.injEq, Prod.mk.injEq] at e1; rw [← e1.1] at e; cases e.1)
        · simp only [Res.ok.injEq, Prod.mk.injEq] at e1
          rw [← e1.1] at e; cases e.1
    · exact removeBoundUpdate_rv e
  · exact removeBoundUpdate_rv e

theorem dropInfinite_rv {sq : K → K} {c : Prop} [Decidable c] {i : Nat} {s s' : QPC K} : dropInfinite sq c i s ≠ .ok (RET_MAX_NWSR_REACHED, s') := by
  intro e
  unfold dropInfinite at e
  split at e
  · rw [Res.bind_eq_ok] at e
    obtain ⟨⟨r, s1⟩, e1, e⟩ := e
    dsimp only at e
    split at e
    · simp only [Res.ok.injEq, Prod.mk.injEq] at e
      rw [e.1] at e1
      exact removeBound_rv e1
    · cases e
  · cases e

theorem updateLimit_rv {sq : K → K} {l u : Nat → K} {i : Nat} {s s' : QPC K} : updateLimit sq l u i s ≠ .ok (RET_MAX_NWSR_REACHED, s') := by
  intro e
  unfold updateLimit at e
  rw [Res.bind_eq_ok] at e
  obtain ⟨⟨r, s1⟩, e1, e⟩ := e
  dsimp only at e
  split at e
  · simp only [Res.ok.injEq, Prod.mk.injEq] at e
    rw [e.1] at e1
    exact dropInfinite_rv e1
  · rw [Res.bind_eq_ok] at e
    obtain ⟨⟨r, s1⟩, e1, e⟩ := e
    dsimp only at e
    split at e
    · simp only [Res.ok.injEq, Prod.mk.injEq] at e
      rw [e.1] at e1
      exact dropInfinite_rv e1
    · cases e

theorem seqLoop_rv {f : Nat → QPC K → Res (ReturnValue × QPC K)} {r0 : ReturnValue} (h0 : r0 ≠ SUCCESSFUL_RETURN)
    (h : ∀ i s s', f i s ≠ .ok (r0, s')) : ∀ (m i : Nat) (s s' : QPC K), seqLoop f m i s ≠ .ok (r0, s') := by
  intro m
  induction m with
  | zero => intro i s s' e; simp only [seqLoop, Res.ok.injEq, Prod.mk.injEq] at e; exact h0 e.1.symm
  | succ m ih =>
    intro i s s' e
    rw [seqLoop, Res.bind_eq_ok] at e
    obtain ⟨⟨r, s1⟩, e1, e⟩ := e
    dsimp only at e
    split at e
    · simp only [Res.ok.injEq, Prod.mk.injEq] at e
      rw [e.1] at e1
      exact h _ _ _ e1
    · exact ih _ _ _ e

/-- The adaption of the bounds to new limits is exact. -/
def UpdateClean (sq : K → K) (s : QPC K) (lbNew ubNew : Option (Nat → K)) : Prop :=
  ∀ l u, lbNew = some l → ubNew = some u → SeqClean (LimitClean sq l u) (updateLimit sq l u) s.nV 0 (s.retyped lbNew ubNew)

theorem updateActivities_spec {sq : K → K} {s s' : QPC K} {lbNew ubNew : Option (Nat → K)} (h : (s.retyped lbNew ubNew).Good)
    (hr : 0 ≤ s.options.boundRelaxation) (hc : UpdateClean sq s lbNew ubNew) {r : ReturnValue}
    (e : updateActivitiesForHotstart sq s lbNew ubNew = .ok (r, s')) :
    r ≠ RET_MAX_NWSR_REACHED ∧ (r = SUCCESSFUL_RETURN → s'.Good ∧ Same s' (s.retyped lbNew ubNew)) := by
  unfold updateActivitiesForHotstart at e
  dsimp only at e
  cases hl : lbNew with
  | none => rw [hl] at e; cases e
  | some l =>
    cases hu : ubNew with
    | none => rw [hl, hu] at e; cases e
    | some u =>
      have hc := hc l u hl hu
      rw [hl, hu] at e hc h
      dsimp only at e
      change (do
        let (r, s1) ← seqLoop (updateLimit sq l u) s.nV 0 (s.retyped (some l) (some u))
        if r ≠ SUCCESSFUL_RETURN then Res.ok (r, s1) else seqLoop (updateEquality sq) s1.nV 0 s1) = _ at e
      rw [Res.bind_eq_ok] at e
      obtain ⟨⟨r1, s1⟩, e1, e⟩ := e
      dsimp only at e
      split at e
      · next hr1 =>
        simp only [Res.ok.injEq, Prod.mk.injEq] at e
        rw [e.1] at e1 hr1
        refine ⟨?_, fun h => absurd h hr1⟩
        rintro rfl
        exact seqLoop_rv (by decide) (fun _ _ _ => updateLimit_rv) _ _ _ _ e1
      next hr' =>
      rw [not_not] at hr'
      subst hr'
      obtain ⟨⟨g1, _, _⟩, S1⟩ := seqLoop_spec (P := Same) (n := s.nV) Same.refl (fun _ _ _ => Same.trans)
        (fun t => t.Good ∧ t.nV = s.nV ∧ 0 ≤ t.options.boundRelaxation) (fun i t t' hi ht hcc he => by
          obtain ⟨a, b⟩ := updateLimit_spec ht.1 (by rw [ht.2.1]; exact hi) ht.2.2 hcc he
          exact ⟨⟨a, b.nV.trans ht.2.1, by rw [b.options]; exact ht.2.2⟩, b⟩) s.nV 0 _ s1 (by omega) ⟨h, rfl, hr⟩ hc e1
      rw [updateEqualities_spec g1 s1.nV 0 (by omega)] at e
      simp only [Res.ok.injEq, Prod.mk.injEq] at e
      rw [← e.1, ← e.2]
      exact ⟨by decide, fun _ => ⟨g1, S1⟩⟩

/-! ### `solveQP` -/

/-- The state with which the adaption of the bounds begins -/
def startOf (s : QPC K) (cputime : Option K) : QPC K :=
  { s with toQPB := { (s.toQPB.startClock cputime).2 with status := QPS_PERFORMINGHOMOTOPY } }

/-- Nothing in the run falls strictly between zero and a tolerance. -/
def RunClean (sq : K → K) (s : QPC K) (gNew : Nat → K) (lbNew ubNew lbANew ubANew : Option (Nat → K)) (nWSR : Int) (cputime : Option K)
    (performed : Int) : Prop :=
  UpdateClean sq (s.startOf cputime) lbNew ubNew ∧ ∀ s', updateActivitiesForHotstart sq (s.startOf cputime) lbNew ubNew = .ok (SUCCESSFUL_RETURN, s') →
    LoopClean sq gNew lbNew ubNew lbANew ubANew nWSR performed cputime (s.toQPB.startClock cputime).1 (nWSR - performed).toNat performed
      { s' with infeasible := false, unbounded := false }

theorem startOf_frame (s : QPC K) (cputime : Option K) : ∃ k, s.startOf cputime = { s with status := QPS_PERFORMINGHOMOTOPY, now := k } := by
  unfold startOf
  cases cputime with
  | none => exact ⟨s.now, rfl⟩
  | some c => exact ⟨s.now + 1, rfl⟩

theorem solveQP_spec {sq : K → K} {s : QPC K} {gNew : Nat → K} {lbNew ubNew lbANew ubANew : Option (Nat → K)} {nWSR : Int}
    {cputime : Option K} {performed : Int} (hG : (s.retyped lbNew ubNew).Good) (hp : s.Params) (hrel : 0 ≤ s.options.boundRelaxation)
    (hT : Target (s.retyped lbNew ubNew) (lowerOf lbNew) (upperOf ubNew) (lowerOf lbANew) (upperOf ubANew))
    (hc : RunClean sq s gNew lbNew ubNew lbANew ubANew nWSR cputime performed) {o : OutC K}
    (e : solveQP sq s gNew lbNew ubNew lbANew ubANew nWSR cputime performed = .ok o) :
    (o.rv = SUCCESSFUL_RETURN → Solved o.s gNew lbNew ubNew lbANew ubANew ∧ Same o.s (s.retyped lbNew ubNew)) ∧
    (o.rv = RET_MAX_NWSR_REACHED → o.s.Good ∧ Same o.s (s.retyped lbNew ubNew)) := by
  unfold solveQP at e
  split at e
  · simp only [Res.ok.injEq] at e
    subst e
    exact ⟨fun hr => absurd hr (by simp), fun hr => absurd hr (by simp)⟩
  · rw [Res.bind_eq_ok] at e
    obtain ⟨⟨r, s1⟩, e1, e⟩ := e
    obtain ⟨hc1, hc2⟩ := hc
    change updateActivitiesForHotstart sq (s.startOf cputime) lbNew ubNew = _ at e1
    dsimp only at e
    have hc2 := hc2 s1
    obtain ⟨k, ek⟩ := startOf_frame s cputime
    rw [ek] at e1 hc1 hc2
    have hG' : (({ s with status := QPS_PERFORMINGHOMOTOPY, now := k } : QPC K).retyped lbNew ubNew).Good :=
      hG.frame (s.retyped lbNew ubNew).tau (s.retyped lbNew ubNew).infeasible (s.retyped lbNew ubNew).unbounded QPS_PERFORMINGHOMOTOPY
        (s.retyped lbNew ubNew).count (s.retyped lbNew ubNew).rampOffset k (s.retyped lbNew ubNew).haveCholesky rfl
    have hS' : Same (({ s with status := QPS_PERFORMINGHOMOTOPY, now := k } : QPC K).retyped lbNew ubNew) (s.retyped lbNew ubNew) :=
      ⟨rfl, rfl, rfl, rfl, rfl, rfl, rfl, rfl, rfl, rfl, rfl, rfl, rfl, rfl, rfl⟩
    obtain ⟨n1, gS⟩ := updateActivities_spec hG' hrel hc1 e1
    split at e
    · next hrr =>
      simp only [Res.ok.injEq] at e
      subst e
      exact ⟨fun hr => absurd hr hrr, fun hr => absurd hr n1⟩
    next hrr =>
    rw [not_not] at hrr
    subst hrr
    obtain ⟨g1, S1⟩ := gS rfl
    have g2 : ({ s1 with infeasible := false, unbounded := false } : QPC K).Good :=
      g1.frame s1.tau false false s1.status s1.count s1.rampOffset s1.now s1.haveCholesky rfl
    have S2 : Same ({ s1 with infeasible := false, unbounded := false } : QPC K) s1 :=
      Same.frame' s1.tau false false s1.status s1.count s1.rampOffset s1.now rfl
    have S3 := S2.trans (S1.trans hS')
    have hp' : (s.retyped lbNew ubNew).Params := ⟨hp.options, hp.ramp⟩
    obtain ⟨j1, j2⟩ := solveLoop_spec nWSR performed cputime _ _ _ _ o g2 (hp'.same S3) (hT.same S3) (hc2 e1) e
    exact ⟨fun hr => ⟨(j1 hr).1, (j1 hr).2.trans S3⟩, fun hr => ⟨(j2 hr).1, (j2 hr).2.trans S3⟩⟩

/-! ### `hotstart` -/

theorem hotstartMain_plain {sq : K → K} {fuel : Nat} {s : QPC K} {gNew : Nat → K} {lbNew ubNew lbANew ubANew : Option (Nat → K)} {nWSR : Int}
    {cputime : Option K} {auxTime : K} (hb : s.areBoundsConsistent lbNew ubNew lbANew ubANew = true) (hch : s.haveCholesky = true)
    (hf : s.options.enableFarBounds = false) (hr : s.usingRegularisation = false) :
    hotstartMain sq fuel s gNew lbNew ubNew lbANew ubANew nWSR cputime auxTime =
      solveQP sq { s with count := s.count + 1 } gNew lbNew ubNew lbANew ubANew nWSR cputime 0 := by
  unfold hotstartMain
  rw [if_neg (by rw [hb]; decide)]
  dsimp only
  rw [if_neg (by rw [hch]; decide), Res.bind_ok]
  dsimp only
  rw [if_neg (by simp), if_pos hf]
  unfold solveRegularisedQP
  rw [if_pos]
  exact hr

theorem consistent_of_target {s : QPC K} {lbNew ubNew lbANew ubANew : Option (Nat → K)} (h : ∀ i < s.nV, lowerOf lbNew i ≤ upperOf ubNew i)
    (hA : ∀ i < s.nC, lowerOf lbANew i ≤ upperOf ubANew i) : s.areBoundsConsistent lbNew ubNew lbANew ubANew = true := by
  unfold areBoundsConsistent
  rw [QPB.consistent_of_target h, Bool.true_and]
  split
  · rename_i l u
    rw [List.all_eq_true]
    intro i hi
    have := hA i (List.mem_range.1 hi)
    have h' : l i ≤ u i := this
    have : (0:K) < EPS := EPS_pos'
    rw [Bool.not_eq_true', decide_eq_false_iff_not, not_lt]
    linarith
  · rfl

theorem hotstart_spec {sq : K → K} (fuel : Nat) {s : QPC K} {gNew : Nat → K} {lbNew ubNew lbANew ubANew : Option (Nat → K)} (nWSR : Int)
    (cputime : Option K) (hch : s.haveCholesky = true) (hf : s.options.enableFarBounds = false) (hr : s.usingRegularisation = false)
    (hG : (s.retyped lbNew ubNew).Good) (hp : s.Params) (hrel : 0 ≤ s.options.boundRelaxation)
    (hT : Target (s.retyped lbNew ubNew) (lowerOf lbNew) (upperOf ubNew) (lowerOf lbANew) (upperOf ubANew))
    (hc : RunClean sq { s with count := s.count + 1 } gNew lbNew ubNew lbANew ubANew nWSR cputime 0) {o : OutC K}
    (e : hotstart sq fuel s gNew lbNew ubNew lbANew ubANew nWSR cputime .null .null = .ok o) :
    (o.rv = SUCCESSFUL_RETURN → Solved o.s gNew lbNew ubNew lbANew ubANew ∧ Same o.s (s.retyped lbNew ubNew)) ∧
    (o.rv = RET_MAX_NWSR_REACHED → o.s.Good ∧ Same o.s (s.retyped lbNew ubNew)) := by
  unfold hotstart at e
  split at e
  · simp only [Res.ok.injEq] at e
    subst e
    exact ⟨fun hr => absurd hr (by simp), fun hr => absurd hr (by simp)⟩
  dsimp only at e
  rw [hotstartMain_plain (consistent_of_target (s := s) hT.box hT.boxA) hch hf hr] at e
  have S0 : Same (({ s with count := s.count + 1 } : QPC K).retyped lbNew ubNew) (s.retyped lbNew ubNew) :=
    ⟨rfl, rfl, rfl, rfl, rfl, rfl, rfl, rfl, rfl, rfl, rfl, rfl, rfl, rfl, rfl⟩
  obtain ⟨j1, j2⟩ := solveQP_spec (s := { s with count := s.count + 1 }) (hG.frame (s.retyped lbNew ubNew).tau (s.retyped lbNew ubNew).infeasible
    (s.retyped lbNew ubNew).unbounded (s.retyped lbNew ubNew).status (s.count + 1) (s.retyped lbNew ubNew).rampOffset
    (s.retyped lbNew ubNew).now (s.retyped lbNew ubNew).haveCholesky rfl) ⟨hp.options, hp.ramp⟩ hrel (hT.same S0) hc e
  exact ⟨fun hr => ⟨(j1 hr).1, (j1 hr).2.trans S0⟩, fun hr => ⟨(j2 hr).1, (j2 hr).2.trans S0⟩⟩

end QPC
end QpOASES
