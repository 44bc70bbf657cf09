import Verif.Proofs.Accum
import Verif.Spec.Matrix
import Mathlib.Algebra.BigOperators.Intervals

namespace QpOASES
open Finset Spec

variable {K : Type} [Field K]

theorem sum_loopFrom (lo hi : Nat) (f : Nat → K) :
    ∑ t ∈ range (hi - lo), f (lo + t) = ∑ i ∈ Ico lo hi, f i := (sum_Ico_eq_sum_range f lo hi).symm

theorem adds_loopFrom {F : Nat → (Nat → K) → Nat → K} {d : Nat → Nat → K} (lo hi : Nat)
    (h : ∀ i, lo ≤ i → i < hi → Adds (F i) (d i)) :
    Adds (loopFrom lo hi F) (fun q => ∑ i ∈ Ico lo hi, d i q) := by
  have := adds_loop (F := fun t => F (lo + t)) (d := fun t => d (lo + t)) (hi - lo)
    (fun t ht => h (lo + t) (by omega) (by omega))
  exact this.congr fun q => sum_loopFrom lo hi (fun i => d i q)

theorem loopFrom_sum (lo hi : Nat) (f : Nat → K) (s : K) :
    loopFrom lo hi (fun i s => s + f i) s = s + ∑ i ∈ Ico lo hi, f i := by
  unfold loopFrom
  rw [← sum_loopFrom]
  induction hi - lo with
  | zero => simp [loop]
  | succ n ih => rw [loop, ih, sum_range_succ]; exact add_assoc _ _ _

/-- strictly increasing on an interval -/
def IncOn (idx : Nat → Nat) (lo hi : Nat) : Prop := ∀ i j, lo ≤ i → i < j → j < hi → idx i < idx j

theorem IncOn.inj {idx : Nat → Nat} {lo hi : Nat} (h : IncOn idx lo hi) {i j : Nat} (hi1 : lo ≤ i) (hi2 : i < hi)
    (hj1 : lo ≤ j) (hj2 : j < hi) (e : idx i = idx j) : i = j := by
  rcases Nat.lt_trichotomy i j with h1 | h1 | h1
  · have := h i j hi1 h1 hj2; omega
  · exact h1
  · have := h j i hj1 h1 hi2; omega

theorem scan_spec (idx : Nat → Nat) (r : Nat) : ∀ n lo,
    lo ≤ scan idx r n lo ∧ scan idx r n lo ≤ lo + n ∧ (∀ t, lo ≤ t → t < scan idx r n lo → idx t < r) ∧
      (scan idx r n lo < lo + n → r ≤ idx (scan idx r n lo)) := by
  intro n
  induction n with
  | zero => intro lo; exact ⟨Nat.le_refl _, Nat.le_refl _, fun t h1 h2 => by simp only [scan] at h2; omega,
      fun h => by simp only [scan] at h; omega⟩
  | succ n ih =>
    intro lo
    simp only [scan]
    by_cases h : idx lo < r
    · rw [if_pos h]
      obtain ⟨h1, h2, h3, h4⟩ := ih (lo+1)
      refine ⟨by omega, by omega, fun t ht1 ht2 => ?_, fun hh => h4 (by omega)⟩
      by_cases e : t = lo
      · subst e; exact h
      · exact h3 t (by omega) ht2
    · rw [if_neg h]
      exact ⟨Nat.le_refl _, by omega, fun t h1 h2 => by omega, fun _ => by omega⟩

/-- At most one stored element for a given minor index. -/
theorem pick_cases {idx : Nat → Nat} {lo hi : Nat} (h : IncOn idx lo hi) (r : Nat) :
    (∃ t, lo ≤ t ∧ t < hi ∧ idx t = r ∧
      ∀ g : Nat → K, ∑ i ∈ Ico lo hi, (if idx i = r then g i else 0) = g t) ∨
    ((∀ t, lo ≤ t → t < hi → idx t ≠ r) ∧
      ∀ g : Nat → K, ∑ i ∈ Ico lo hi, (if idx i = r then g i else 0) = 0) := by
  by_cases hex : ∃ t, lo ≤ t ∧ t < hi ∧ idx t = r
  · obtain ⟨t, h1, h2, h3⟩ := hex
    refine Or.inl ⟨t, h1, h2, h3, fun g => ?_⟩
    rw [sum_eq_single t]
    · rw [if_pos h3]
    · intro i hi' hne
      rw [if_neg]
      intro e
      rw [mem_Ico] at hi'
      exact hne (h.inj hi'.1 hi'.2 h1 h2 (e.trans h3.symm))
    · intro hn; exact absurd (mem_Ico.2 ⟨h1, h2⟩) hn
  · refine Or.inr ⟨fun t h1 h2 h3 => hex ⟨t, h1, h2, h3⟩, fun g => ?_⟩
    apply sum_eq_zero
    intro i hi'
    rw [mem_Ico] at hi'
    rw [if_neg fun e => hex ⟨i, hi'.1, hi'.2, e⟩]

/-- The element found by the search loop. -/
theorem scan_find {idx : Nat → Nat} {lo hi : Nat} (hle : lo ≤ hi) (h : IncOn idx lo hi) (r : Nat) (g : Nat → K) :
    (if scan idx r (hi - lo) lo < hi ∧ idx (scan idx r (hi - lo) lo) = r then g (scan idx r (hi - lo) lo) else 0) =
      ∑ i ∈ Ico lo hi, if idx i = r then g i else 0 := by
  obtain ⟨h1, h2, h3, h4⟩ := scan_spec idx r (hi - lo) lo
  generalize scan idx r (hi - lo) lo = s at *
  rcases pick_cases (K := K) h r with ⟨t, t1, t2, t3, t4⟩ | ⟨t1, t2⟩
  · rw [t4 g]
    have hs : s = t := by
      rcases Nat.lt_trichotomy s t with hlt | he | hgt
      · have a := h4 (by omega)
        have b := h s t h1 hlt t2
        omega
      · exact he
      · have := h3 t t1 hgt; omega
    subst hs
    rw [if_pos ⟨t2, t3⟩]
  · rw [t2 g, if_neg]
    rintro ⟨a, b⟩
    exact t1 s h1 a b

/-- Value of `f` at the stored entry. -/
theorem entry_map {idx : Nat → Nat} {lo hi : Nat} (h : IncOn idx lo hi) (r : Nat) (val : Nat → K) (f : K → K)
    (f0 : f 0 = 0) :
    ∑ i ∈ Ico lo hi, (if idx i = r then f (val i) else 0) = f (∑ i ∈ Ico lo hi, if idx i = r then val i else 0) := by
  rcases pick_cases (K := K) h r with ⟨t, _, _, _, t4⟩ | ⟨_, t2⟩
  · rw [t4 fun i => f (val i), t4 val]
  · rw [t2 fun i => f (val i), t2 val, f0]

/-- The merge loop performs the addition for exactly the pairs with equal indices. -/
theorem merge_adds {idx : Nat → Nat} {hi : Nat} {num : Nat → Nat} {len : Nat}
    {onEq : Nat → Nat → (Nat → K) → Nat → K} {d : Nat → Nat → Nat → K} :
    ∀ fuel i j, (hi - i) + (len - j) < fuel → IncOn idx i hi → IncOn num j len →
      (∀ a b, i ≤ a → a < hi → b < len → Adds (onEq a b) (d a b)) → ∀ y : Nat → K,
      ∃ j' y', mergeLoop idx hi num len onEq (fun _ y => y) fuel i j y = .ok (j', y') ∧
        ∀ q, y' q = y q + ∑ a ∈ Ico i hi, ∑ b ∈ Ico j len, if idx a = num b then d a b q else 0 := by
  intro fuel
  induction fuel with
  | zero => intro i j h; omega
  | succ fuel ih =>
    intro i j hf hI hN hA y
    simp only [mergeLoop]
    by_cases hc : i < hi ∧ j < len
    · rw [if_pos hc]
      by_cases he : idx i = num j
      · rw [if_pos he]
        obtain ⟨j', y', e, hq⟩ := ih (i+1) (j+1) (by omega) (fun a b h1 h2 h3 => hI a b (by omega) h2 h3)
          (fun a b h1 h2 h3 => hN a b (by omega) h2 h3) (fun a b h1 h2 h3 => hA a b (by omega) h2 h3) (onEq i j y)
        refine ⟨j', y', e, fun q => ?_⟩
        rw [hq, hA i j (Nat.le_refl _) hc.1 hc.2, sum_eq_sum_Ico_succ_bot hc.1, sum_eq_sum_Ico_succ_bot hc.2,
          if_pos he, add_assoc]
        congr 1
        have h0 : ∑ k ∈ Ico (j+1) len, (if idx i = num k then d i k q else 0) = 0 := by
          apply sum_eq_zero
          intro k hk
          rw [mem_Ico] at hk
          have := hN j k (Nat.le_refl _) (by omega) hk.2
          rw [if_neg (by omega)]
        rw [h0, add_zero]
        congr 1
        apply sum_congr rfl
        intro a ha
        rw [mem_Ico] at ha
        rw [sum_eq_sum_Ico_succ_bot hc.2]
        have := hI i a (Nat.le_refl _) (by omega) ha.2
        rw [if_neg (show ¬ idx a = num j by omega), zero_add]
      · rw [if_neg he]
        by_cases hg : num j < idx i
        · rw [if_pos hg]
          obtain ⟨j', y', e, hq⟩ := ih i (j+1) (by omega) hI
            (fun a b h1 h2 h3 => hN a b (by omega) h2 h3) hA y
          refine ⟨j', y', e, fun q => ?_⟩
          rw [hq]
          congr 1
          apply sum_congr rfl
          intro a ha
          rw [mem_Ico] at ha
          rw [sum_eq_sum_Ico_succ_bot hc.2]
          have : num j < idx a := by
            by_cases e1 : a = i
            · subst e1; exact hg
            · have := hI i a (Nat.le_refl _) (by omega) ha.2; omega
          rw [if_neg (show ¬ idx a = num j by omega), zero_add]
        · rw [if_neg hg]
          obtain ⟨j', y', e, hq⟩ := ih (i+1) j (by omega) (fun a b h1 h2 h3 => hI a b (by omega) h2 h3) hN
            (fun a b h1 h2 h3 => hA a b (by omega) h2 h3) y
          refine ⟨j', y', e, fun q => ?_⟩
          rw [hq, sum_eq_sum_Ico_succ_bot hc.1]
          congr 1
          have h0 : ∑ b ∈ Ico j len, (if idx i = num b then d i b q else 0) = 0 := by
            apply sum_eq_zero
            intro b hb
            rw [mem_Ico] at hb
            have : num j ≤ num b := by
              by_cases e1 : b = j
              · subst e1; exact Nat.le_refl _
              · exact (hN j b (Nat.le_refl _) (by omega) hb.2).le
            rw [if_neg (by omega)]
          rw [h0, zero_add]
    · rw [if_neg hc]
      refine ⟨j, y, rfl, fun q => ?_⟩
      have h0 : ∑ a ∈ Ico i hi, ∑ b ∈ Ico j len, (if idx a = num b then d a b q else 0) = 0 := by
        apply sum_eq_zero
        intro a ha
        apply sum_eq_zero
        intro b hb
        rw [mem_Ico] at ha hb
        omega
      rw [h0, add_zero]

/-- A loop over bodies that succeed and add. -/
theorem loopR_adds {f : Nat → (Nat → K) → Res (Nat → K)} {d : Nat → Nat → K} (n : Nat)
    (h : ∀ l < n, ∀ y, ∃ y', f l y = .ok y' ∧ ∀ q, y' q = y q + d l q) (y : Nat → K) :
    ∃ y', loopR f n y = .ok y' ∧ ∀ q, y' q = y q + ∑ l ∈ range n, d l q := by
  induction n with
  | zero => exact ⟨y, rfl, fun q => by simp⟩
  | succ n ih =>
    obtain ⟨y1, e1, h1⟩ := ih fun l hl => h l (by omega)
    obtain ⟨y2, e2, h2⟩ := h n (by omega) y1
    refine ⟨y2, ?_, fun q => ?_⟩
    · simp only [loopR, e1, Res.bind_ok, e2]
    · rw [h2, h1, sum_range_succ, add_assoc]

/-- Spreading an indicator over all candidates. -/
theorem sum_scatter {n a q s : Nat} (h : a < n) (c : K) :
    (if q = a + s then c else 0) = ∑ r ∈ range n, if q = r + s then (if a = r then c else 0) else 0 := by
  rw [sum_eq_single a]
  · simp
  · intro r _ hne
    rw [if_neg (show ¬ a = r from fun e => hne e.symm), ite_self]
  · intro hn; exact absurd (mem_range.2 h) hn

theorem CompWf.incOn {nMaj nMin size : Nat} {ptr idx : Nat → Nat} (h : CompWf nMaj nMin size ptr idx) {m : Nat}
    (hm : m < nMaj) : IncOn idx (ptr m) (ptr (m+1)) := fun i j h1 h2 h3 => h.inc m hm i j h1 h2 h3

theorem CompWf.mono_le {nMaj nMin size : Nat} {ptr idx : Nat → Nat} (h : CompWf nMaj nMin size ptr idx) {m : Nat} :
    ∀ {m'}, m ≤ m' → m' ≤ nMaj → ptr m ≤ ptr m' := by
  intro m' h1
  induction h1 with
  | refl => intro _; exact Nat.le_refl _
  | step _ ih =>
    intro h2
    exact Nat.le_trans (ih (by omega)) (h.mono _ (by omega))

theorem incOn_sorted {ix : Ix} {b : Nat} (h : ix.Wf b) : IncOn (fun j => ix.number (ix.iSort j)) 0 ix.len :=
  fun i j _ h2 h3 => h.mono i j h2 h3

end QpOASES
