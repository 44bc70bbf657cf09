import Verif.Model.Indexlist
import Verif.Proofs.Loops
import Mathlib.Data.Fintype.EquivFin

namespace QpOASES
namespace Indexlist

/-- value of a list at a position -/
abbrev v (l : List Int) (i : Nat) : Int := l.getD i 0

/-- `s` stores the sequence `l`, sorted by the permutation `p`. -/
structure Rep (s : Indexlist) (l : List Int) (p : Nat → Nat) : Prop where
  len : s.length = l.length
  cap : l.length ≤ s.physicallength
  nsz : s.number.size = s.physicallength
  isz : s.iSort.size = s.physicallength
  num : ∀ i, i < l.length → s.number.cell i = some (v l i)
  srt : ∀ i, i < l.length → s.iSort.cell i = some (p i : Int)
  rng : ∀ i, i < l.length → p i < l.length
  mono : ∀ i j, i < j → j < l.length → v l (p i) < v l (p j)

variable {s : Indexlist} {l : List Int} {p : Nat → Nat}

theorem Rep.inj (R : Rep s l p) {i j : Nat} (hi : i < l.length) (hj : j < l.length)
    (h : p i = p j) : i = j := by
  rcases Nat.lt_trichotomy i j with h1 | h1 | h1
  · have := R.mono i j h1 hj; rw [h] at this; omega
  · exact h1
  · have := R.mono j i h1 hi; rw [h] at this; omega

theorem Rep.surj (R : Rep s l p) {k : Nat} (hk : k < l.length) : ∃ i, i < l.length ∧ p i = k := by
  let f : Fin l.length → Fin l.length := fun i => ⟨p i, R.rng i i.2⟩
  have hf : Function.Injective f := by
    intro a b h
    have : p a = p b := by simpa [f] using h
    exact Fin.ext (R.inj a.2 b.2 this)
  obtain ⟨a, ha⟩ := (Finite.injective_iff_surjective.1 hf) ⟨k, hk⟩
  exact ⟨a, a.2, by simpa [f] using ha⟩

theorem v_eq (l : List Int) {i : Nat} (h : i < l.length) : v l i = l[i] := by
  simp [v, h]

theorem Rep.nodup (R : Rep s l p) : l.Nodup := by
  rw [List.nodup_iff_injective_getElem]
  intro a b h
  obtain ⟨i, hi, pi⟩ := R.surj a.2
  obtain ⟨j, hj, pj⟩ := R.surj b.2
  have hv : v l (p i) = v l (p j) := by
    rw [pi, pj, v_eq l a.2, v_eq l b.2]; exact h
  have : i = j := by
    rcases Nat.lt_trichotomy i j with h1 | h1 | h1
    · have := R.mono i j h1 hj; omega
    · exact h1
    · have := R.mono j i h1 hi; omega
  apply Fin.ext
  rw [← pi, ← pj, this]

theorem Rep.iget (R : Rep s l p) {i : Nat} (hi : i < l.length) :
    s.iSort.get (i : Int) = .ok (p i : Int) :=
  Mem.get_ok (by have := R.cap; have := R.isz; omega) (R.srt i hi)

theorem Rep.nget (R : Rep s l p) {i : Nat} (hi : i < l.length) :
    s.number.get (i : Int) = .ok (v l i) :=
  Mem.get_ok (by have := R.cap; have := R.nsz; omega) (R.num i hi)

theorem Rep.nget' (R : Rep s l p) {i : Nat} (hi : i < l.length) :
    s.number.get (p i : Int) = .ok (v l (p i)) := R.nget (R.rng i hi)

theorem bisect_spec (R : Rep s l p) (n : Int) : ∀ (fuel fst lst : Nat), lst < l.length → fst < lst →
    lst - fst ≤ fuel → v l (p fst) ≤ n → n < v l (p lst) →
    ∃ j, bisect s n fuel fst lst = .ok j ∧ j + 1 < l.length ∧ v l (p j) ≤ n ∧ n < v l (p (j+1)) := by
  intro fuel
  induction fuel with
  | zero => intro fst lst _ _ h; omega
  | succ fuel ih =>
    intro fst lst hl hlt hf h1 h2
    by_cases hc : (fst : Int) < (lst : Int) - 1
    · have hm : (fst + lst) / 2 < l.length := by omega
      have e1 := R.iget hm
      have e2 := R.nget' hm
      by_cases hv : n ≥ v l (p ((fst + lst) / 2))
      · obtain ⟨j, hj⟩ := ih ((fst+lst)/2) lst hl (by omega) (by omega) hv h2
        refine ⟨j, ?_, hj.2⟩
        rw [bisect, if_pos hc]
        simp only [e1, e2, Res.bind_ok, if_pos hv]
        exact hj.1
      · obtain ⟨j, hj⟩ := ih fst ((fst+lst)/2) hm (by omega) (by omega) h1 (by omega)
        refine ⟨j, ?_, hj.2⟩
        rw [bisect, if_pos hc]
        simp only [e1, e2, Res.bind_ok, if_neg hv]
        exact hj.1
    · refine ⟨fst, ?_, by omega, h1, ?_⟩
      · rw [bisect, if_neg hc]
      · have : fst + 1 = lst := by omega
        rw [this]; exact h2

theorem Rep.mono_le (R : Rep s l p) {i j : Nat} (h : i ≤ j) (hj : j < l.length) :
    v l (p i) ≤ v l (p j) := by
  rcases Nat.lt_or_eq_of_le h with h | h
  · exact Int.le_of_lt (R.mono i j h hj)
  · rw [h]

theorem findInsert_spec (R : Rep s l p) (n : Int) :
    ∃ j : Int, s.findInsert n = .ok j ∧ -1 ≤ j ∧ j < l.length ∧
      (∀ i : Nat, i < l.length → (i : Int) ≤ j → v l (p i) ≤ n) ∧
      (∀ i : Nat, i < l.length → j < (i : Int) → n < v l (p i)) := by
  unfold findInsert
  by_cases h0 : s.length = 0
  · refine ⟨-1, by simp [h0], by omega, by omega, ?_, ?_⟩
    · intro i hi; omega
    · intro i hi; have := R.len; omega
  · have hlen : 0 < l.length := by have := R.len; omega
    have hlast : l.length - 1 < l.length := by omega
    have e1 := R.iget hlen
    have e2 := R.nget' hlen
    have e3 := R.iget hlast
    have e4 := R.nget' hlast
    have ec : (s.length : Int) - 1 = ((l.length - 1 : Nat) : Int) := by have := R.len; omega
    rw [if_neg h0]
    rw [show ((0 : Nat) : Int) = 0 from rfl] at e1
    simp only [e1, e2, Res.bind_ok]
    by_cases hlt : n < v l (p 0)
    · refine ⟨-1, by rw [if_pos hlt], by omega, by omega, ?_, ?_⟩
      · intro i hi hh; omega
      · intro i hi _
        have := R.mono_le (Nat.zero_le i) hi
        omega
    · rw [if_neg hlt, ec]
      simp only [e3, e4, Res.bind_ok]
      by_cases hge : n ≥ v l (p (l.length - 1))
      · refine ⟨((l.length - 1 : Nat) : Int), by rw [if_pos hge], by omega, by omega, ?_, ?_⟩
        · intro i hi _
          have := R.mono_le (show i ≤ l.length - 1 by omega) hlast
          omega
        · intro i hi hh; omega
      · rw [if_neg hge]
        have hn1 : 0 < l.length - 1 := by
          rcases Nat.eq_zero_or_pos (l.length - 1) with h | h
          · rw [h] at hge; omega
          · exact h
        obtain ⟨j, hj, hj1, hj2, hj3⟩ := bisect_spec R n (s.length + 1) 0 (s.length - 1)
          (by have := R.len; omega) (by have := R.len; omega) (by omega) (by omega)
          (by rw [R.len]; omega)
        refine ⟨j, by simp [hj], by omega, by omega, ?_, ?_⟩
        · intro i hi hh
          have := R.mono_le (show i ≤ j by omega) (show j < l.length by omega)
          omega
        · intro i hi hh
          have := R.mono_le (show j + 1 ≤ i by omega) hi
          omega

/-- Position found by `findInsert` for a member. -/
theorem findInsert_mem (R : Rep s l p) {k : Nat} (hk : k < l.length) :
    ∃ j : Nat, j < l.length ∧ s.findInsert (v l k) = .ok (j : Int) ∧ p j = k := by
  obtain ⟨j, e, hlo, hhi, hle, hgt⟩ := findInsert_spec R (v l k)
  obtain ⟨i, hi, pi⟩ := R.surj hk
  have h1 : (i : Int) ≤ j := by
    by_contra hc
    have := hgt i hi (by omega)
    rw [pi] at this; omega
  have h2 : i = j.toNat := by
    by_contra hc
    have a := R.mono i j.toNat (by omega) (by omega)
    have b := hle j.toNat (by omega) (by omega)
    rw [pi] at a; omega
  refine ⟨i, hi, ?_, pi⟩
  rw [e]; congr 1; omega

/-- For a number that is not below the minimum, `findInsert` returns a valid position, and the entry
there equals the number exactly if it is a member. -/
theorem findInsert_ge (R : Rep s l p) {n : Int} (h : ∃ m ∈ l, m ≤ n) :
    ∃ j : Nat, j < l.length ∧ s.findInsert n = .ok (j : Int) ∧ (v l (p j) = n ↔ n ∈ l) := by
  by_cases hn : n ∈ l
  · obtain ⟨k, hk, rfl⟩ := List.getElem_of_mem hn
    rw [← v_eq l hk]
    obtain ⟨j, hj, e, pj⟩ := findInsert_mem R hk
    exact ⟨j, hj, e, by rw [pj, v_eq l hk]; simp⟩
  · obtain ⟨m, hm, hmn⟩ := h
    obtain ⟨k, hk, rfl⟩ := List.getElem_of_mem hm
    obtain ⟨i, hi, pi⟩ := R.surj hk
    obtain ⟨j, e, hlo, hhi, hle, hgt⟩ := findInsert_spec R n
    have hj0 : 0 ≤ j := by
      by_contra hc
      have := hgt i hi (by omega)
      rw [pi, v_eq l hk] at this; omega
    refine ⟨j.toNat, by omega, by rw [e]; congr 1; omega, ?_⟩
    constructor
    · intro hv
      have hr := R.rng j.toNat (by omega)
      rw [v_eq l hr] at hv
      rw [← hv]; exact List.getElem_mem _
    · intro h; exact absurd h hn

/-- Below the minimum (or on the empty list) `findInsert` returns -1. -/
theorem findInsert_lt (R : Rep s l p) {n : Int} (h : ∀ m ∈ l, n < m) : s.findInsert n = .ok (-1) := by
  obtain ⟨j, e, hlo, hhi, hle, hgt⟩ := findInsert_spec R n
  have : j = -1 := by
    by_contra hc
    have hj : j.toNat < l.length := by omega
    have a := hle j.toNat hj (by omega)
    have hr := R.rng j.toNat hj
    rw [v_eq l hr] at a
    have := h _ (List.getElem_mem hr)
    omega
  rw [e, this]

theorem getIndex_ge (R : Rep s l p) {n : Int} (h : ∃ m ∈ l, m ≤ n) :
    s.getIndex n = .ok (if n ∈ l then (l.idxOf n : Int) else -1) := by
  obtain ⟨j, hj, e, hv⟩ := findInsert_ge R h
  unfold getIndex
  simp only [e, Res.bind_ok, R.iget hj, R.nget' hj]
  by_cases hn : n ∈ l
  · have hvn := hv.2 hn
    rw [if_pos hvn, if_pos hn]
    have hr := R.rng j hj
    rw [v_eq l hr] at hvn
    have : l.idxOf n = p j := by
      rw [← hvn]; exact R.nodup.idxOf_getElem _ _
    rw [this]
  · rw [if_neg (fun h => hn (hv.1 h)), if_neg hn]

theorem getIndex_lt (R : Rep s l p) {n : Int} (h : ∀ m ∈ l, n < m) :
    s.getIndex n = .ub .outOfBounds := by
  unfold getIndex
  simp only [findInsert_lt R h, Res.bind_ok]
  rw [Mem.get_neg _ (by omega)]; rfl

/-- permutation after inserting the new last element at sorted position `j` -/
def insP (p : Nat → Nat) (j len : Nat) : Nat → Nat := fun i =>
  if i < j then p i else if i = j then len else p (i - 1)

theorem addNumber_spec (R : Rep s l p) {n : Int} (hn : n ∉ l) (hc : l.length < s.physicallength) :
    ∃ s' p', s.addNumber n = .ok (.SUCCESSFUL_RETURN, s') ∧ Rep s' (l ++ [n]) p' ∧
      s'.physicallength = s.physicallength := by
  have hlen := R.len
  have hset := Mem.set_ok s.number (i := s.length) n (by have := R.nsz; omega)
  have R1 : Rep { s with number := ⟨s.number.size, fun k => if k = s.length then some n else s.number.cell k⟩ } l p := by
    refine ⟨R.len, R.cap, R.nsz, R.isz, ?_, R.srt, R.rng, R.mono⟩
    intro i hi
    have : i ≠ s.length := by omega
    simp [this, R.num i hi]
  obtain ⟨j, e, hlo, hhi, hle, hgt⟩ := findInsert_spec R1 n
  -- the shifting loop
  have hloop := forDown_inv (f := fun i (a : Mem Int) => do a.set i (← a.get ((i : Int) - 1)))
    (P := fun k a => a.size = s.physicallength ∧
      ∀ i, i < s.length + 1 → a.cell i = if i < k then s.iSort.cell i else s.iSort.cell (i-1))
    (s.length + 1 - (j+2).toNat) (j+2).toNat s.iSort ?_ ?_
  · obtain ⟨a, ha, hsz, hcell⟩ := hloop
    have hset2 := Mem.set_ok' a (i := j+1) (s.length : Int) (by omega) (by omega)
    refine ⟨⟨⟨s.number.size, fun k => if k = s.length then some n else s.number.cell k⟩,
        ⟨a.size, fun k => if k = (j+1).toNat then some (s.length : Int) else a.cell k⟩,
        s.length + 1, s.physicallength⟩, insP p (j+1).toNat l.length, ?_, ?_, rfl⟩
    · unfold addNumber
      rw [if_neg (by omega)]
      simp only [hset, Res.bind_ok, e, ha, hset2]
    · refine ⟨?_, ?_, ?_, ?_, ?_, ?_, ?_, ?_⟩
      · simp [hlen]
      · simp; omega
      · exact R.nsz
      · exact hsz
      · intro i hi
        simp at hi
        by_cases hil : i = l.length
        · simp [hil, hlen, v]
        · have : i < l.length := by omega
          have h2 : i ≠ s.length := by omega
          simp [h2, R.num i this, v, List.getElem?_append_left this]
      · intro i hi
        simp at hi
        simp only [insP]
        by_cases h1 : i < (j+1).toNat
        · have h2 : i ≠ (j+1).toNat := by omega
          rw [if_neg h2, hcell i (by omega), if_pos (by omega), if_pos h1]
          exact R.srt i (by omega)
        · by_cases h2 : i = (j+1).toNat
          · simp [h2, hlen]
          · rw [if_neg h2, hcell i (by omega), if_neg (by omega), if_neg h1, if_neg h2]
            exact R.srt (i-1) (by omega)
      · intro i hi
        simp at hi ⊢
        simp only [insP]
        split
        · have := R.rng i (by omega); omega
        · split
          · omega
          · have := R.rng (i-1) (by omega); omega
      · intro a b hab hb
        simp at hb
        have key : ∀ i, i < l.length → v (l ++ [n]) (p i) = v l (p i) := by
          intro i hi
          have := R.rng i hi
          simp [v, List.getElem?_append_left this]
        have keyn : v (l ++ [n]) l.length = n := by simp [v]
        have hne : ∀ i, i < l.length → v l (p i) ≠ n := by
          intro i hi h
          have hr := R.rng i hi
          rw [v_eq l hr] at h
          exact hn (h ▸ List.getElem_mem hr)
        simp only [insP]
        by_cases ha1 : a < (j+1).toNat
        · rw [if_pos ha1, key a (by omega)]
          have hva := hle a (by omega) (by omega)
          have hna := hne a (by omega)
          by_cases hb1 : b < (j+1).toNat
          · rw [if_pos hb1, key b (by omega)]; exact R.mono a b hab (by omega)
          · rw [if_neg hb1]
            by_cases hb2 : b = (j+1).toNat
            · rw [if_pos hb2, keyn]; omega
            · rw [if_neg hb2, key _ (by omega)]
              exact R.mono a (b-1) (by omega) (by omega)
        · rw [if_neg ha1]
          have hb1 : ¬ b < (j+1).toNat := by omega
          have hb2 : ¬ b = (j+1).toNat := by omega
          rw [if_neg hb1, if_neg hb2, key _ (by omega)]
          by_cases ha2 : a = (j+1).toNat
          · rw [if_pos ha2, keyn]
            exact hgt (b-1) (by omega) (by omega)
          · rw [if_neg ha2, key _ (by omega)]
            exact R.mono (a-1) (b-1) (by omega) (by omega)
  · refine ⟨R.isz, ?_⟩
    intro i hi
    rw [if_pos (by omega)]
  · intro i a hi1 hi2 ⟨hsz, hcell⟩
    have hi3 : i < s.length + 1 := by omega
    have hg : a.get ((i : Int) - 1) = .ok (p (i-1) : Int) := by
      apply Mem.get_ok' (by omega)
      · rw [hsz]; omega
      · have : ((i : Int) - 1).toNat = i - 1 := by omega
        rw [this, hcell (i-1) (by omega), if_pos (by omega)]
        exact R.srt (i-1) (by omega)
    have hs := Mem.set_ok a (i := i) (p (i-1) : Int) (by rw [hsz]; omega)
    refine ⟨⟨a.size, fun k => if k = i then some (p (i-1) : Int) else a.cell k⟩,
      by simp only [hg, Res.bind_ok]; exact hs, hsz, ?_⟩
    intro k hk
    by_cases hki : k = i
    · subst hki
      simp
      exact (R.srt (k-1) (by omega)).symm
    · simp only [hki, if_false]
      rw [hcell k hk]
      by_cases h : k < i
      · rw [if_pos (by omega), if_pos h]
      · rw [if_neg (by omega), if_neg h]

theorem addNumber_full (R : Rep s l p) {n : Int} (hc : ¬ l.length < s.physicallength) :
    s.addNumber n = .ok (.RET_INDEXLIST_EXCEEDS_MAX_LENGTH, s) := by
  unfold addNumber
  rw [if_pos (by have := R.len; omega)]

/-- skip position `k` -/
def dec (k q : Nat) : Nat := if k < q then q - 1 else q
def remP (p : Nat → Nat) (j k : Nat) : Nat → Nat := fun i => dec k (if i < j then p i else p (i+1))

theorem v_eraseIdx (l : List Int) (k i : Nat) :
    v (l.eraseIdx k) i = if i < k then v l i else v l (i+1) := by
  simp only [v, List.getD_eq_getElem?_getD, List.getElem?_eraseIdx]
  split <;> rfl

theorem removeNumber_mem (R : Rep s l p) {n : Int} (hn : n ∈ l) :
    ∃ s' p', s.removeNumber n = .ok (.SUCCESSFUL_RETURN, s') ∧ Rep s' (l.erase n) p' ∧
      s'.physicallength = s.physicallength := by
  obtain ⟨k, hk, rfl⟩ := List.getElem_of_mem hn
  obtain ⟨j, hj, e, pj⟩ := findInsert_mem R hk
  rw [v_eq l hk] at e
  have hlen := R.len
  have her : l.erase l[k] = l.eraseIdx k := by
    have h1 := List.erase_eq_eraseIdx l l[k]
    have h2 : l.idxOf l[k] = k := R.nodup.idxOf_getElem _ _
    rw [List.idxOf_eq_getD_idxOf?] at h2
    rw [h1]
    cases hh : List.idxOf? l[k] l with
    | none => simp [List.idxOf?_eq_none_iff] at hh
    | some a => rw [hh] at h2; simp at h2; simp [h2]
  rw [her]
  -- loop 1
  have hl1 := forUp_inv (f := fun i (a : Mem Int) => do
        let x ← a.get (i : Int)
        if x > (k : Int) then a.set (i : Int) (x - 1) else .ok a)
    (P := fun m a => a.size = s.physicallength ∧
      ∀ i, i < s.length → a.cell i = some (if i < m then (dec k (p i) : Int) else (p i : Int)))
    s.length 0 s.iSort ⟨R.isz, fun i hi => by simp [R.srt i (by omega)]⟩ ?_
  · obtain ⟨a, ha, hasz, hac⟩ := hl1
    simp only [Nat.zero_add] at hac
    -- loop 2
    have hl2 := forUp_inv (f := fun i (a : Mem Int) => do a.set ((i : Int) - 1) (← a.get (i : Int)))
      (P := fun m b => b.size = s.physicallength ∧
        ∀ i, i < s.length → b.cell i =
          some (if j ≤ i ∧ i + 1 < m then (dec k (p (i+1)) : Int) else (dec k (p i) : Int)))
      (s.length - ((j : Int) + 1).toNat) ((j : Int) + 1).toNat a
      ⟨hasz, fun i hi => by
        rw [hac i hi, if_pos hi, if_neg (by omega)]⟩ ?_
    · obtain ⟨b, hb, hbsz, hbc⟩ := hl2
      have hl3 := forUp_inv (f := fun i (a : Mem Int) => do a.set (i : Int) (← a.get ((i : Int) + 1)))
        (P := fun m c => c.size = s.physicallength ∧
          ∀ i, i < s.length → c.cell i = some (if k ≤ i ∧ i < m then v l (i+1) else v l i))
        (s.length - 1 - (k : Int).toNat) (k : Int).toNat s.number
        ⟨R.nsz, fun i hi => by
          rw [R.num i (by omega), if_neg (by simp)]⟩ ?_
      · obtain ⟨c, hc, hcsz, hcc⟩ := hl3
        have hset := Mem.set_ok' c (i := (s.length : Int) - 1) (-1 : Int) (by omega)
          (by have := R.cap; omega)
        refine ⟨⟨⟨c.size, fun q => if q = ((s.length : Int) - 1).toNat then some (-1) else c.cell q⟩, b,
          s.length - 1, s.physicallength⟩, remP p j k, ?_, ?_, rfl⟩
        · unfold removeNumber
          have hv : v l k = l[k] := v_eq l hk
          have hg := R.nget' hj
          rw [pj, hv] at hg
          have hi := R.iget hj
          rw [pj] at hi
          simp only [e, Res.bind_ok, hi, hg, ha, hb, hc, hset]
          simp
        · have hel : (l.eraseIdx k).length = l.length - 1 := by
            rw [List.length_eraseIdx, if_pos hk]
          refine ⟨by simp [hel, hlen], by have := R.cap; simp only [hel]; omega, hcsz, hbsz, ?_, ?_, ?_, ?_⟩
          · intro i hi
            rw [hel] at hi
            have : i ≠ ((s.length : Int) - 1).toNat := by omega
            simp only [this, if_false]
            rw [hcc i (by omega), v_eraseIdx]
            congr 1
            by_cases h : i < k
            · rw [if_neg (by omega), if_pos h]
            · rw [if_pos (by omega), if_neg h]
          · intro i hi
            rw [hel] at hi
            simp only [remP]
            rw [hbc i (by omega)]
            by_cases h : i < j
            · rw [if_neg (by omega), if_pos h]
            · rw [if_pos (by omega), if_neg h]
          · intro i hi
            rw [hel] at hi ⊢
            simp only [remP, dec]
            have hq : (if i < j then p i else p (i+1)) < l.length := by
              split
              · exact R.rng i (by omega)
              · exact R.rng (i+1) (by omega)
            have hqk : (if i < j then p i else p (i+1)) ≠ k := by
              rw [← pj]
              split
              · intro h; have := R.inj (by omega) hj h; omega
              · intro h; have := R.inj (by omega) hj h; omega
            generalize (if i < j then p i else p (i+1)) = q at *
            split <;> omega
          · have key : ∀ q, q ≠ k → v (l.eraseIdx k) (dec k q) = v l q := by
              intro q hq
              rw [v_eraseIdx]
              unfold dec
              by_cases h : k < q
              · rw [if_pos h, if_neg (by omega)]
                congr 1; omega
              · rw [if_neg h, if_pos (by omega)]
            intro x y hxy hy
            rw [hel] at hy
            have hqk : ∀ i, i < l.length - 1 → (if i < j then p i else p (i+1)) ≠ k := by
              intro i hi
              rw [← pj]
              split
              · intro h; have := R.inj (by omega) hj h; omega
              · intro h; have := R.inj (by omega) hj h; omega
            simp only [remP]
            rw [key _ (hqk x (by omega)), key _ (hqk y hy)]
            by_cases h1 : x < j
            · by_cases h2 : y < j
              · rw [if_pos h1, if_pos h2]; exact R.mono x y hxy (by omega)
              · rw [if_pos h1, if_neg h2]; exact R.mono x (y+1) (by omega) (by omega)
            · rw [if_neg h1, if_neg (by omega)]; exact R.mono (x+1) (y+1) (by omega) (by omega)
      · intro i c hi1 hi2 ⟨hsz, hcell⟩
        simp at hi1 hi2
        have hcap := R.cap
        have hg : c.get ((i : Int) + 1) = .ok (v l (i+1)) := by
          apply Mem.get_ok' (by omega) (by omega)
          have : ((i : Int) + 1).toNat = i + 1 := by omega
          rw [this, hcell (i+1) (by omega), if_neg (by omega)]
        have hs := Mem.set_ok c (i := i) (v l (i+1)) (by omega)
        refine ⟨⟨c.size, fun q => if q = i then some (v l (i+1)) else c.cell q⟩,
          by simp only [hg, Res.bind_ok]; exact hs, hsz, ?_⟩
        intro q hq
        by_cases hqi : q = i
        · subst hqi
          simp [hi1]
        · simp only [hqi, if_false]
          rw [hcell q hq]
          congr 1
          by_cases h : k ≤ q ∧ q < i
          · rw [if_pos h, if_pos (by omega)]
          · rw [if_neg h, if_neg (by omega)]
    · intro i b hi1 hi2 ⟨hsz, hcell⟩
      have hcap := R.cap
      have hg : b.get (i : Int) = .ok (dec k (p i) : Int) := by
        apply Mem.get_ok (by omega)
        rw [hcell i (by omega), if_neg (by omega)]
      have hs := Mem.set_ok' b (i := (i : Int) - 1) (dec k (p i) : Int) (by omega) (by omega)
      refine ⟨⟨b.size, fun q => if q = ((i : Int) - 1).toNat then some (dec k (p i) : Int) else b.cell q⟩,
        by simp only [hg, Res.bind_ok]; exact hs, hsz, ?_⟩
      intro q hq
      by_cases hqi : q = ((i : Int) - 1).toNat
      · have : q + 1 = i := by omega
        simp only [hqi, if_true]
        rw [← hqi, if_pos (by omega), this]
      · simp only [hqi, if_false]
        rw [hcell q hq]
        congr 1
        by_cases h : j ≤ q ∧ q + 1 < i
        · rw [if_pos h, if_pos (by omega)]
        · rw [if_neg h, if_neg (by omega)]
  · intro i a hi1 hi2 ⟨hsz, hcell⟩
    have hcap := R.cap
    have hg : a.get (i : Int) = .ok (p i : Int) := by
      apply Mem.get_ok (by omega)
      rw [hcell i (by omega), if_neg (by omega)]
    by_cases hgt : (p i : Int) > (k : Int)
    · have hs := Mem.set_ok a (i := i) ((p i : Int) - 1) (by omega)
      refine ⟨⟨a.size, fun q => if q = i then some ((p i : Int) - 1) else a.cell q⟩,
        by simp only [hg, Res.bind_ok, if_pos hgt]; exact hs, hsz, ?_⟩
      intro q hq
      by_cases hqi : q = i
      · subst hqi
        simp only [if_true]
        rw [if_pos (by omega)]
        unfold dec
        rw [if_pos (by omega)]
        congr 1; omega
      · simp only [hqi, if_false]
        rw [hcell q hq]
        congr 1
        by_cases h : q < i
        · rw [if_pos h, if_pos (by omega)]
        · rw [if_neg h, if_neg (by omega)]
    · refine ⟨a, by simp only [hg, Res.bind_ok, if_neg hgt], hsz, ?_⟩
      intro q hq
      rw [hcell q hq]
      congr 1
      by_cases h : q < i
      · rw [if_pos h, if_pos (by omega)]
      · rw [if_neg h]
        by_cases hqi : q = i
        · subst hqi
          rw [if_pos (by omega)]
          unfold dec
          rw [if_neg (by omega)]
        · rw [if_neg (by omega)]

theorem removeNumber_nonmem (R : Rep s l p) {n : Int} (hn : n ∉ l) (h : ∃ m ∈ l, m ≤ n) :
    s.removeNumber n = .ok (.SUCCESSFUL_RETURN, s) := by
  obtain ⟨j, hj, e, hv⟩ := findInsert_ge R h
  unfold removeNumber
  simp only [e, Res.bind_ok, R.iget hj, R.nget' hj]
  rw [if_pos (fun h => hn (hv.1 h))]

theorem removeNumber_lt (R : Rep s l p) {n : Int} (h : ∀ m ∈ l, n < m) :
    s.removeNumber n = .ub .outOfBounds := by
  unfold removeNumber
  simp only [findInsert_lt R h, Res.bind_ok]
  rw [Mem.get_neg _ (by omega)]; rfl

/-- exchange two numbers -/
def swapFn (a b x : Int) : Int := if x = a then b else if x = b then a else x

theorem swapNumbers_mem (R : Rep s l p) {a b : Int} (ha : a ∈ l) (hb : b ∈ l) :
    ∃ s' p', s.swapNumbers a b = .ok (.SUCCESSFUL_RETURN, s') ∧ Rep s' (l.map (swapFn a b)) p' ∧
      s'.physicallength = s.physicallength := by
  obtain ⟨ka, hka, rfl⟩ := List.getElem_of_mem ha
  obtain ⟨kb, hkb, rfl⟩ := List.getElem_of_mem hb
  obtain ⟨ja, hja, ea, pja⟩ := findInsert_mem R hka
  obtain ⟨jb, hjb, eb, pjb⟩ := findInsert_mem R hkb
  rw [v_eq l hka] at ea
  rw [v_eq l hkb] at eb
  have hcap := R.cap
  have hnsz := R.nsz
  have hisz := R.isz
  have ia := R.iget hja
  have ib := R.iget hjb
  have na := R.nget' hja
  have nb := R.nget' hjb
  rw [pja] at ia na
  rw [pjb] at ib nb
  have va := v_eq l hka
  have vb := v_eq l hkb
  have s1 := Mem.set_ok s.number (i := ka) (v l kb) (by omega)
  have s2 := Mem.set_ok ⟨s.number.size, fun k => if k = ka then some (v l kb) else s.number.cell k⟩
    (i := kb) (v l ka) (by simp; omega)
  have t1 := Mem.set_ok s.iSort (i := ja) (kb : Int) (by omega)
  have t2 := Mem.set_ok ⟨s.iSort.size, fun k => if k = ja then some (kb : Int) else s.iSort.cell k⟩
    (i := jb) (ka : Int) (by simp; omega)
  refine ⟨⟨⟨s.number.size, fun k => if k = kb then some (v l ka) else if k = ka then some (v l kb) else s.number.cell k⟩,
    ⟨s.iSort.size, fun k => if k = jb then some (ka : Int) else if k = ja then some (kb : Int) else s.iSort.cell k⟩,
    s.length, s.physicallength⟩, fun i => if i = jb then ka else if i = ja then kb else p i, ?_, ?_, rfl⟩
  · unfold swapNumbers
    simp only [ea, eb, Res.bind_ok, ia, ib, na, nb, va, vb, ne_eq, not_true_eq_false, if_false]
    rw [va, vb] at s2
    rw [vb] at s1
    simp only [s1, s2, t1, t2, Res.bind_ok]
  · have hval : ∀ i, i < l.length → v (l.map (swapFn l[ka] l[kb])) i = swapFn l[ka] l[kb] (v l i) := by
      intro i hi; simp [v, hi]
    have hinj : ∀ i, ∀ (hi : i < l.length) (k : Nat) (hk : k < l.length), v l i = l[k] → i = k := by
      intro i hi k hk h
      rw [v_eq l hi] at h
      exact (R.nodup.getElem_inj_iff).1 h
    refine ⟨by simp [R.len], by simpa using hcap, hnsz, hisz, ?_, ?_, ?_, ?_⟩
    · intro i hi
      simp only [List.length_map] at hi
      rw [hval i hi]
      unfold swapFn
      simp only
      by_cases h1 : i = kb
      · subst h1
        simp only [if_true, v_eq l hi]
        split
        · next h => rw [h, v_eq l hka]
        · rw [v_eq l hka]
      · by_cases h2 : i = ka
        · subst h2
          rw [if_neg h1, if_pos rfl, v_eq l hi, v_eq l hkb, if_pos rfl]
        · rw [if_neg h1, if_neg h2, R.num i hi]
          rw [if_neg (fun h => h2 (hinj i hi ka hka h)), if_neg (fun h => h1 (hinj i hi kb hkb h))]
    · intro i hi
      simp only [List.length_map] at hi
      simp only
      split
      · rfl
      · split
        · rfl
        · exact R.srt i hi
    · intro i hi
      simp only [List.length_map] at hi ⊢
      split
      · exact hka
      · split
        · exact hkb
        · exact R.rng i hi
    · -- the value at sorted position i is unchanged
      have hkey : ∀ i, i < l.length →
          v (l.map (swapFn l[ka] l[kb])) (if i = jb then ka else if i = ja then kb else p i) = v l (p i) := by
        intro i hi
        by_cases h1 : i = jb
        · rw [if_pos h1, hval _ hka, va, h1, pjb, vb]; simp [swapFn]
        · by_cases h2 : i = ja
          · rw [if_neg h1, if_pos h2, hval _ hkb, vb, h2, pja, va]
            unfold swapFn
            split
            · next h => exact h
            · simp
          · rw [if_neg h1, if_neg h2, hval _ (R.rng i hi)]
            unfold swapFn
            have n1 : ¬ v l (p i) = l[ka] := by
              intro h
              have := hinj _ (R.rng i hi) ka hka h
              rw [← pja] at this
              exact h2 (R.inj hi hja this)
            have n2 : ¬ v l (p i) = l[kb] := by
              intro h
              have := hinj _ (R.rng i hi) kb hkb h
              rw [← pjb] at this
              exact h1 (R.inj hi hjb this)
            rw [if_neg n1, if_neg n2]
      intro x y hxy hy
      simp only [List.length_map] at hy
      rw [hkey x (by omega), hkey y hy]
      exact R.mono x y hxy hy

theorem swapNumbers_nonmem (R : Rep s l p) {a b : Int} (ha : ∃ m ∈ l, m ≤ a) (hb : ∃ m ∈ l, m ≤ b)
    (h : ¬ (a ∈ l ∧ b ∈ l)) : s.swapNumbers a b = .ok (.RET_INDEXLIST_CORRUPTED, s) := by
  obtain ⟨ja, hja, ea, va⟩ := findInsert_ge R ha
  obtain ⟨jb, hjb, eb, vb⟩ := findInsert_ge R hb
  unfold swapNumbers
  simp only [ea, eb, Res.bind_ok, R.iget hja, R.nget' hja, R.iget hjb, R.nget' hjb]
  by_cases h1 : v l (p ja) ≠ a
  · rw [if_pos h1]
  · rw [if_neg h1]
    have : v l (p jb) ≠ b := by
      intro h2
      exact h ⟨va.1 (not_not.1 h1), vb.1 h2⟩
    rw [if_pos this]

theorem getNumber_spec (R : Rep s l p) (i : Int) (h : i ≠ l.length) :
    s.getNumber i = .ok (if 0 ≤ i ∧ i < l.length then v l i.toNat else -15) := by
  unfold getNumber
  have := R.len
  by_cases h1 : i < 0 ∨ i > (s.length : Int)
  · rw [if_pos h1, if_neg (by omega)]; rfl
  · rw [if_neg h1, if_pos (by omega)]
    exact Mem.get_ok' (by omega) (by have := R.cap; have := R.nsz; omega) (R.num _ (by omega))

theorem init_rep (s : Indexlist) {n : Int} (h : 0 ≤ n) :
    (s.init n).1 = .SUCCESSFUL_RETURN ∧ Rep (s.init n).2 [] id ∧
      (s.init n).2.physicallength = n.toNat := by
  unfold init
  rw [if_neg (by omega)]
  refine ⟨rfl, ⟨rfl, by simp, rfl, rfl, ?_, ?_, ?_, ?_⟩, rfl⟩ <;> intro i <;> simp

end Indexlist
end QpOASES
