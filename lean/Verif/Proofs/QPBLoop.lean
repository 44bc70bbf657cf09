import Verif.Proofs.QPBOpt

/-!
Drift correction, ramping, and the main loop of the bound-constrained solver.
-/
namespace QpOASES
open Finset Props SubjectToStatus SubjectToType ReturnValue HessianType QProblemStatus

variable {K : Type} [Field K] [LinearOrder K] [IsStrictOrderedRing K]

namespace QPB

/-- The optimality conditions that concern variable `i` alone (not stationarity). -/
structure OptAt (s : QPB K) (i : Nat) : Prop where
  lower : s.bounds.status i = ST_LOWER → s.x i = s.lb i ∧ (s.bounds.type i ≠ ST_EQUALITY → 0 ≤ s.y i)
  upper : s.bounds.status i = ST_UPPER → s.x i = s.ub i ∧ (s.bounds.type i ≠ ST_EQUALITY → s.y i ≤ 0)
  inactive : s.bounds.status i = ST_INACTIVE → s.y i = 0 ∧ (s.bounds.noLower = false → s.lb i ≤ s.x i) ∧
    (s.bounds.noUpper = false → s.x i ≤ s.ub i)
  box : s.lb i ≤ s.ub i
  eq : s.bounds.type i = ST_EQUALITY → s.bounds.status i ≠ ST_INACTIVE ∧ s.lb i = s.ub i

theorem Opt.at {s : QPB K} (h : s.Opt) {i : Nat} (hi : i < s.nV) : s.OptAt i :=
  ⟨h.lower i hi, h.upper i hi, h.inactive i hi, h.box i hi, h.eq i hi⟩

theorem Opt.of_at {s : QPB K} (hs : ∀ i < s.nV, ∑ j ∈ range s.nV, s.Heff i j * s.x j + s.g i = s.y i)
    (h : ∀ i < s.nV, s.OptAt i) : s.Opt :=
  ⟨hs, fun i hi => (h i hi).lower, fun i hi => (h i hi).upper, fun i hi => (h i hi).inactive, fun i hi => (h i hi).box,
    fun i hi => (h i hi).eq⟩

theorem OptAt.congr {s s' : QPB K} {i : Nat} (h : s.OptAt i) (hb : s'.bounds = s.bounds) (hx : s'.x i = s.x i) (hl : s'.lb i = s.lb i)
    (hu : s'.ub i = s.ub i) (hy : s'.y i = s.y i) : s'.OptAt i := by
  refine ⟨?_, ?_, ?_, ?_, ?_⟩
  · rw [hb, hx, hl, hy]; exact h.lower
  · rw [hb, hx, hu, hy]; exact h.upper
  · rw [hb, hx, hl, hu, hy]; exact h.inactive
  · rw [hl, hu]; exact h.box
  · rw [hb, hl, hu]; exact h.eq

/-! ### gradient -/

theorem setupAuxiliaryQPgradient_spec {s : QPB K} (hH : ¬ s.scalarH → s.H ≠ none) :
    ∃ g', setupAuxiliaryQPgradient s = .ok { s with g := g' } ∧
      ∀ i < s.nV, ∑ j ∈ range s.nV, s.Heff i j * s.x j + g' i = s.y i := by
  have hsum : s.scalarH → ∀ i < s.nV, ∑ j ∈ range s.nV, s.Heff i j * s.x j = s.scal * s.x i := by
    intro hs i hi
    rw [sum_eq_single i (fun j _ hj => by rw [Heff_scalar hs, if_neg (Ne.symm hj), zero_mul])
      (fun h => absurd (mem_range.2 hi) h), Heff_scalar hs, if_pos rfl]
  have hfull : ¬ s.scalarH → ∃ g', (do
      let H ← s.getH
      .ok { s with g := fun i => s.y i - sumTo (fun j => H i j * s.x j) s.nV }) = Res.ok ({ s with g := g' } : QPB K) ∧
      ∀ i < s.nV, ∑ j ∈ range s.nV, s.Heff i j * s.x j + g' i = s.y i := by
    intro hns
    obtain ⟨H, hH'⟩ := Option.ne_none_iff_exists'.1 (hH hns)
    have hg : s.getH = .ok H := by unfold getH; rw [hH']
    rw [hg]
    refine ⟨_, rfl, fun i hi => ?_⟩
    rw [sumTo_eq]
    have : ∀ j, s.Heff i j = H i j := Heff_of_H hns hH' i
    simp only [this]
    ring
  unfold setupAuxiliaryQPgradient
  split
  · rename_i hz
    have hs : s.scalarH := Or.inl hz
    by_cases hr : s.usingRegularisation = true
    · rw [if_pos hr]
      refine ⟨_, rfl, fun i hi => ?_⟩
      rw [hsum hs i hi]
      unfold scal
      rw [if_pos hz, if_pos hr]
      ring
    · rw [if_neg hr]
      refine ⟨_, rfl, fun i hi => ?_⟩
      rw [hsum hs i hi]
      unfold scal
      rw [if_pos hz, if_neg hr]
      ring
  · rename_i hz
    refine ⟨_, rfl, fun i hi => ?_⟩
    rw [hsum (Or.inr hz) i hi]
    unfold scal
    rw [if_neg (by rw [hz]; decide)]
    ring
  · rename_i h1 h2
    exact hfull (fun h => h.elim h1 h2)

/-! ### drift correction -/

theorem le_getMax_right (a b : K) : b ≤ getMax a b := by unfold getMax; split <;> [exact le_of_lt ‹_›; exact le_refl _]
theorem le_getMax_left (a b : K) : a ≤ getMax a b := by unfold getMax; split <;> [exact le_refl _; exact not_lt.1 ‹_›]
theorem getMin_le_right (a b : K) : getMin a b ≤ b := by unfold getMin; split <;> [exact le_of_lt ‹_›; exact le_refl _]
theorem getMin_le_left (a b : K) : getMin a b ≤ a := by unfold getMin; split <;> [exact le_refl _; exact not_lt.1 ‹_›]

/-- Drift correction repairs every variable that has finite limits. -/
theorem drift_opt {s : QPB K} (hw : s.bounds.OK) (hn : s.bounds.n = s.nV) (hH : ¬ s.scalarH → s.H ≠ none)
    (h : ∀ i < s.nV, s.bounds.type i = ST_BOUNDED ∨ (s.bounds.type i = ST_EQUALITY ∧ s.bounds.status i ≠ ST_INACTIVE) ∨
      (s.bounds.type i ≠ ST_EQUALITY ∧ s.OptAt i)) :
    ∃ g l u y, performDriftCorrection s = .ok { s with g := g, lb := l, ub := u, y := y } ∧
      ({ s with g := g, lb := l, ub := u, y := y } : QPB K).Opt := by
  unfold performDriftCorrection
  dsimp only
  set v := fun i => driftOne (s.bounds.type i) (s.bounds.getStatus i) (s.x i) (s.lb i) (s.ub i) (s.y i) with hv
  set s1 : QPB K := { s with
    lb := fun i => if i < s.nV then (v i).1 else s.lb i
    ub := fun i => if i < s.nV then (v i).2.1 else s.ub i
    y := fun i => if i < s.nV then (v i).2.2 else s.y i } with hs1
  obtain ⟨g', e, hg⟩ := setupAuxiliaryQPgradient_spec (s := s1) hH
  refine ⟨g', s1.lb, s1.ub, s1.y, e, Opt.of_at hg fun i hi => ?_⟩
  have hi : i < s.nV := hi
  have hst : s.bounds.getStatus i = s.bounds.status i := WS.getStatus_of_lt (by rw [hn]; exact hi)
  have el : s1.lb i = (v i).1 := if_pos hi
  have eu : s1.ub i = (v i).2.1 := if_pos hi
  have ey : s1.y i = (v i).2.2 := if_pos hi
  have main : s1.OptAt i := by
    by_cases hty : s.bounds.type i = ST_BOUNDED
    · have hne : s1.bounds.type i ≠ ST_EQUALITY := by show s.bounds.type i ≠ _; rw [hty]; decide
      rcases hw.status_cases (by rw [hn]; exact hi) with hs | hs | hs
      · have hvi : v i = (getMin (s.lb i) (s.x i), getMax (s.ub i) (s.x i), 0) := by
          rw [hv]; beta_reduce; rw [hty, hst, hs]; rfl
        rw [hvi] at el eu ey
        have h1 := getMin_le_right (s.lb i) (s.x i)
        have h2 := le_getMax_right (s.ub i) (s.x i)
        refine ⟨fun h => ?_, fun h => ?_, fun _ => ⟨ey, fun _ => ?_, fun _ => ?_⟩, ?_, fun h => absurd h hne⟩
        · have h : s.bounds.status i = _ := h
          rw [hs] at h; cases h
        · have h : s.bounds.status i = _ := h
          rw [hs] at h; cases h
        · rw [el]; exact h1
        · rw [eu]; exact h2
        · rw [el, eu]; exact h1.trans h2
      · have hvi : v i = (s.x i, getMax (s.ub i) (s.x i), getMax (s.y i) 0) := by
          rw [hv]; beta_reduce; rw [hty, hst, hs]; rfl
        rw [hvi] at el eu ey
        refine ⟨fun _ => ⟨el.symm, fun _ => ?_⟩, fun h => ?_, fun h => ?_, ?_, fun h => absurd h hne⟩
        · rw [ey]; exact le_getMax_right _ _
        · have h : s.bounds.status i = _ := h
          rw [hs] at h; cases h
        · have h : s.bounds.status i = _ := h
          rw [hs] at h; cases h
        · rw [el, eu]; exact le_getMax_right _ _
      · have hvi : v i = (getMin (s.lb i) (s.x i), s.x i, getMin (s.y i) 0) := by
          rw [hv]; beta_reduce; rw [hty, hst, hs]; rfl
        rw [hvi] at el eu ey
        refine ⟨fun h => ?_, fun _ => ⟨eu.symm, fun _ => ?_⟩, fun h => ?_, ?_, fun h => absurd h hne⟩
        · have h : s.bounds.status i = _ := h
          rw [hs] at h; cases h
        · rw [ey]; exact getMin_le_right _ _
        · have h : s.bounds.status i = _ := h
          rw [hs] at h; cases h
        · rw [el, eu]; exact getMin_le_right _ _
    rcases h i hi with hb | ⟨hty, hact⟩ | ⟨hty', hoa⟩
    · exact absurd hb hty
    · have hvi : v i = (s.x i, s.x i, s.y i) := by
        rw [hv]; beta_reduce; rw [hty]; rfl
      rw [hvi] at el eu ey
      refine ⟨fun _ => ⟨el.symm, fun h => absurd hty h⟩, fun _ => ⟨eu.symm, fun h => absurd hty h⟩, fun h => absurd h hact, ?_,
        fun _ => ⟨hact, ?_⟩⟩
      · rw [el, eu]
      · rw [el, eu]
    · have hvi : v i = (s.lb i, s.ub i, s.y i) := by
        rw [hv]; beta_reduce
        generalize hT : s.bounds.type i = T at *
        cases T <;> first | rfl | exact absurd rfl hty | exact absurd rfl hty'
      rw [hvi] at el eu ey
      exact hoa.congr rfl rfl el eu ey
  exact main.congr rfl rfl rfl rfl rfl

/-! ### ramping -/

/-- New `(lb, ub, y)` of variable `i`, with ramp value `v`. -/
def rampTriple (s : QPB K) (v : K) (i : Nat) : K × K × K :=
  match s.bounds.type i with
  | ST_EQUALITY => (s.x i, s.x i, s.y i)
  | ST_UNBOUNDED => (s.lb i, s.ub i, s.y i)
  | ST_DISABLED => (s.lb i, s.ub i, s.y i)
  | _ =>
    match s.bounds.getStatus i with
    | ST_LOWER => (s.x i, s.x i + v, v)
    | ST_UPPER => (s.x i - v, s.x i, -v)
    | ST_INACTIVE => (s.x i - v, s.x i + v, 0)
    | _ => (s.x i - v, s.x i + v, s.y i)

theorem updA_self {α : Type} (f : Nat → α) (i : Nat) : updA f i (f i) = f := by
  funext j
  by_cases e : j = i
  · subst e; rw [updA_same]
  · exact updA_ne _ _ e

theorem updA_updA {α : Type} (f : Nat → α) (i : Nat) (a b : α) : updA (updA f i a) i b = updA f i b := by
  funext j
  by_cases e : j = i
  · subst e; rw [updA_same, updA_same]
  · rw [updA_ne _ _ e, updA_ne _ _ e, updA_ne _ _ e]

theorem rampVal_spec {s : QPB K} {n : Nat} (hn : 2 ≤ n) (h0 : 0 ≤ s.ramp0) (h1 : 0 ≤ s.ramp1) (i : Nat) :
    ∃ v, s.rampVal i n = .ok v ∧ 0 ≤ v ∧ min s.ramp0 s.ramp1 ≤ v ∧ v ≤ max s.ramp0 s.ramp1 := by
  have hlt : (i + s.rampOffset) % n < n := Nat.mod_lt _ (by omega)
  have hd : (((n : Int) - 1 : Int) : K) = ((n - 1 : Nat) : K) := by
    have : ((n : Int) - 1) = ((n - 1 : Nat) : Int) := by omega
    rw [this, Int.cast_natCast]
  have hpos : (0 : K) < ((n - 1 : Nat) : K) := by exact_mod_cast (show 0 < n - 1 by omega)
  unfold rampVal
  rw [hd, cdiv_ok hpos.ne']
  simp only [Res.bind_ok]
  refine ⟨_, rfl, ?_⟩
  set t : K := ((((i + s.rampOffset) % n : Nat)) : K) / ((n - 1 : Nat) : K) with ht
  have ht0 : 0 ≤ t := div_nonneg (Nat.cast_nonneg _) hpos.le
  have ht1 : t ≤ 1 := by
    rw [ht, div_le_one hpos]
    exact_mod_cast (show (i + s.rampOffset) % n ≤ n - 1 by omega)
  have a1 := mul_nonneg (sub_nonneg.2 ht1) h0
  have a2 := mul_nonneg ht0 h1
  refine ⟨by linarith, ?_, ?_⟩
  · have b1 := mul_le_mul_of_nonneg_left (min_le_left s.ramp0 s.ramp1) (sub_nonneg.2 ht1)
    have b2 := mul_le_mul_of_nonneg_left (min_le_right s.ramp0 s.ramp1) ht0
    linarith [sub_mul 1 t (min s.ramp0 s.ramp1)]
  · have b1 := mul_le_mul_of_nonneg_left (le_max_left s.ramp0 s.ramp1) (sub_nonneg.2 ht1)
    have b2 := mul_le_mul_of_nonneg_left (le_max_right s.ramp0 s.ramp1) ht0
    linarith [sub_mul 1 t (max s.ramp0 s.ramp1)]

theorem rampOne_eq {s : QPB K} {i : Nat} {v : K} (hv : s.rampVal i s.nV = .ok v) :
    rampOne s i = .ok { s with
      lb := updA s.lb i (s.rampTriple v i).1
      ub := updA s.ub i (s.rampTriple v i).2.1
      y := updA s.y i (s.rampTriple v i).2.2 } := by
  have body : (do
      let v ← s.rampVal i s.nV
      let st := s.bounds.getStatus i
      let lb := if st ≠ ST_LOWER then updA s.lb i (s.x i - v) else s.lb
      let ub := if st ≠ ST_UPPER then updA s.ub i (s.x i + v) else s.ub
      let lb := if st = ST_LOWER then updA lb i (s.x i) else lb
      let y := if st = ST_LOWER then updA s.y i v else s.y
      let ub := if st = ST_UPPER then updA ub i (s.x i) else ub
      let y := if st = ST_UPPER then updA y i (-v) else y
      let y := if st = ST_INACTIVE then updA y i 0 else y
      .ok { s with lb := lb, ub := ub, y := y }) = Res.ok (
        let t : K × K × K := match s.bounds.getStatus i with
        | ST_LOWER => (s.x i, s.x i + v, v)
        | ST_UPPER => (s.x i - v, s.x i, -v)
        | ST_INACTIVE => (s.x i - v, s.x i + v, 0)
        | _ => (s.x i - v, s.x i + v, s.y i)
        ({ s with lb := updA s.lb i t.1, ub := updA s.ub i t.2.1, y := updA s.y i t.2.2 } : QPB K)) := by
    rw [hv]
    simp only [Res.bind_ok]
    cases s.bounds.getStatus i <;>
      simp only [ne_eq, reduceCtorEq, not_false_eq_true, not_true_eq_false, if_true, if_false, updA_self]
  unfold rampOne rampTriple
  cases hty : s.bounds.type i
  case ST_EQUALITY => simp only [updA_self]
  case ST_UNBOUNDED => simp only [updA_self]
  case ST_DISABLED => simp only [updA_self]
  all_goals exact body

theorem rampLoop_spec : ∀ (m i : Nat) (s : QPB K), 2 ≤ s.nV → 0 ≤ s.ramp0 → 0 ≤ s.ramp1 →
    ∃ l u y, rampLoop m i s = .ok { s with lb := l, ub := u, y := y } ∧
      (∀ j, (j < i ∨ i + m ≤ j) → l j = s.lb j ∧ u j = s.ub j ∧ y j = s.y j) ∧
      (∀ j, i ≤ j → j < i + m → ∃ v, 0 ≤ v ∧ min s.ramp0 s.ramp1 ≤ v ∧ v ≤ max s.ramp0 s.ramp1 ∧ (l j, u j, y j) = s.rampTriple v j) := by
  intro m
  induction m with
  | zero => intro i s _ _ _; exact ⟨_, _, _, rfl, fun _ _ => ⟨rfl, rfl, rfl⟩, fun j h1 h2 => absurd h2 (by omega)⟩
  | succ m ih =>
    intro i s hn h0 h1
    obtain ⟨v, e, hv0, hv1, hv2⟩ := rampVal_spec (s := s) hn h0 h1 i
    rw [rampLoop, rampOne_eq e]
    simp only [Res.bind_ok]
    set s1 : QPB K := { s with
      lb := updA s.lb i (s.rampTriple v i).1
      ub := updA s.ub i (s.rampTriple v i).2.1
      y := updA s.y i (s.rampTriple v i).2.2 } with hs1
    obtain ⟨l, u, y, e1, e2, e3⟩ := ih (i+1) s1 hn h0 h1
    refine ⟨l, u, y, e1, fun j hj => ?_, fun j hj1 hj2 => ?_⟩
    · obtain ⟨f1, f2, f3⟩ := e2 j (by omega)
      have hji : j ≠ i := by omega
      refine ⟨f1.trans (updA_ne _ _ hji), f2.trans (updA_ne _ _ hji), f3.trans (updA_ne _ _ hji)⟩
    · by_cases hji : j = i
      · subst hji
        obtain ⟨f1, f2, f3⟩ := e2 j (by omega)
        refine ⟨v, hv0, hv1, hv2, ?_⟩
        rw [f1, f2, f3]
        show (updA s.lb j _ j, updA s.ub j _ j, updA s.y j _ j) = _
        rw [updA_same, updA_same, updA_same]
      · obtain ⟨v', w0, w1, w2, w3⟩ := e3 j (by omega) (by omega)
        refine ⟨v', w0, w1, w2, w3.trans ?_⟩
        unfold rampTriple
        have a1 : s1.lb j = s.lb j := updA_ne _ _ hji
        have a2 : s1.ub j = s.ub j := updA_ne _ _ hji
        have a3 : s1.y j = s.y j := updA_ne _ _ hji
        rw [a1, a2, a3]

/-- Ramping makes the iterate optimal. -/
theorem ramp_opt {s : QPB K} (hw : s.bounds.OK) (hn : s.bounds.n = s.nV) (hH : ¬ s.scalarH → s.H ≠ none)
    (hnV : 2 ≤ s.nV) (h0 : 0 ≤ s.ramp0) (h1 : 0 ≤ s.ramp1)
    (h : ∀ i < s.nV, s.bounds.type i = ST_BOUNDED ∨ s.bounds.type i = ST_UNKNOWN ∨
      (s.bounds.type i = ST_EQUALITY ∧ s.bounds.status i ≠ ST_INACTIVE) ∨
      (s.bounds.type i ≠ ST_EQUALITY ∧ s.OptAt i)) :
    ∃ g l u y, performRamping s = .ok { s with g := g, lb := l, ub := u, y := y, rampOffset := s.rampOffset + 1 } ∧
      ({ s with g := g, lb := l, ub := u, y := y, rampOffset := s.rampOffset + 1 } : QPB K).Opt := by
  obtain ⟨l, u, y, e, _, hj⟩ := rampLoop_spec s.nV 0 s hnV h0 h1
  obtain ⟨g', e', hg⟩ := setupAuxiliaryQPgradient_spec (s := { s with lb := l, ub := u, y := y }) hH
  unfold performRamping
  rw [e]
  simp only [Res.bind_ok]
  rw [e']
  simp only [Res.bind_ok]
  refine ⟨g', l, u, y, rfl, Opt.of_at hg fun i hi => ?_⟩
  have hi : i < s.nV := hi
  have hst : s.bounds.getStatus i = s.bounds.status i := WS.getStatus_of_lt (by rw [hn]; exact hi)
  obtain ⟨v, hv, _, _, ht⟩ := hj i (Nat.zero_le _) (by omega)
  set s1 : QPB K := { s with lb := l, ub := u, y := y } with hs1
  have ramped : s.bounds.type i ≠ ST_EQUALITY → s.rampTriple v i = (match s.bounds.getStatus i with
      | ST_LOWER => (s.x i, s.x i + v, v)
      | ST_UPPER => (s.x i - v, s.x i, -v)
      | ST_INACTIVE => (s.x i - v, s.x i + v, 0)
      | _ => (s.x i - v, s.x i + v, s.y i)) → s1.OptAt i := by
    intro hne hr
    rw [hr, hst] at ht
    rcases hw.status_cases (by rw [hn]; exact hi) with hs | hs | hs <;> rw [hs] at ht <;>
      obtain ⟨el, eu, ey⟩ := (by simpa only [Prod.mk.injEq] using ht : _ ∧ _ ∧ _)
    · refine ⟨fun h => ?_, fun h => ?_, fun _ => ⟨ey, fun _ => ?_, fun _ => ?_⟩, ?_, fun h => absurd h hne⟩
      · have h : s.bounds.status i = _ := h
        rw [hs] at h; cases h
      · have h : s.bounds.status i = _ := h
        rw [hs] at h; cases h
      · show l i ≤ s.x i; rw [el]; linarith
      · show s.x i ≤ u i; rw [eu]; linarith
      · show l i ≤ u i; rw [el, eu]; linarith
    · refine ⟨fun _ => ⟨el.symm, fun _ => ?_⟩, fun h => ?_, fun h => ?_, ?_, fun h => absurd h hne⟩
      · show 0 ≤ y i; rw [ey]; exact hv
      · have h : s.bounds.status i = _ := h
        rw [hs] at h; cases h
      · have h : s.bounds.status i = _ := h
        rw [hs] at h; cases h
      · show l i ≤ u i; rw [el, eu]; linarith
    · refine ⟨fun h => ?_, fun _ => ⟨eu.symm, fun _ => ?_⟩, fun h => ?_, ?_, fun h => absurd h hne⟩
      · have h : s.bounds.status i = _ := h
        rw [hs] at h; cases h
      · show y i ≤ 0; rw [ey]; linarith
      · have h : s.bounds.status i = _ := h
        rw [hs] at h; cases h
      · show l i ≤ u i; rw [el, eu]; linarith
  have main : s1.OptAt i := by
    have hcase := h i hi
    cases hty : s.bounds.type i
    case ST_BOUNDED => exact ramped (by rw [hty]; decide) (by unfold rampTriple; rw [hty])
    case ST_UNKNOWN => exact ramped (by rw [hty]; decide) (by unfold rampTriple; rw [hty])
    case ST_EQUALITY =>
      have hact : s.bounds.status i ≠ ST_INACTIVE := by
        rcases hcase with h | h | h | h
        · rw [hty] at h; cases h
        · rw [hty] at h; cases h
        · exact h.2
        · exact absurd hty h.1
      have hr : s.rampTriple v i = (s.x i, s.x i, s.y i) := by unfold rampTriple; rw [hty]
      rw [hr] at ht
      obtain ⟨el, eu, ey⟩ := (by simpa only [Prod.mk.injEq] using ht : _ ∧ _ ∧ _)
      refine ⟨fun _ => ⟨el.symm, fun h => absurd hty h⟩, fun _ => ⟨eu.symm, fun h => absurd hty h⟩, fun h => absurd h hact, ?_,
        fun _ => ⟨hact, ?_⟩⟩
      · show l i ≤ u i; rw [el, eu]
      · show l i = u i; rw [el, eu]
    all_goals
      have hr : s.rampTriple v i = (s.lb i, s.ub i, s.y i) := by unfold rampTriple; rw [hty]
      rw [hr] at ht
      obtain ⟨el, eu, ey⟩ := (by simpa only [Prod.mk.injEq] using ht : _ ∧ _ ∧ _)
      have hoa : s.OptAt i := by
        rcases hcase with h | h | h | h
        · rw [hty] at h; cases h
        · rw [hty] at h; cases h
        · rw [hty] at h; cases h.1
        · exact h.2
      exact hoa.congr rfl rfl el eu ey
  exact main.congr rfl rfl rfl rfl rfl

end QPB
end QpOASES
