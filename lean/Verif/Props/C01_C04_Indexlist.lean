import Verif.Spec.IntSeq
import Verif.Proofs.Indexlist

/-!
Properties C01-C04: index lists.
-/
namespace QpOASES.Props
open QpOASES QpOASES.Indexlist QpOASES.Spec

/-- Everything a caller can observe about the index list `s` agrees with the sequence `l`. -/
structure Observes (s : Indexlist) (l : List Int) : Prop where
  length : s.getLength = l.length
  entries : ∀ i (h : i < l.length), s.getNumber (i : Int) = .ok l[i]
  last : ∀ h : l ≠ [], s.getLastNumber = .ok (l.getLast h)
  index : ∀ n ∈ l, s.getIndex n = .ok (l.idxOf n : Int)
  distinct : l.Nodup
  /-- the array handed out by `getISortArray` lists the positions in increasing order of numbers -/
  sorted : ∃ q : Nat → Nat, (∀ i, i < l.length → s.iSort.get (i : Int) = .ok (q i : Int) ∧ q i < l.length) ∧
    ∀ i j, i < j → j < l.length → l.getD (q i) 0 < l.getD (q j) 0

theorem Rep_observes {s : Indexlist} {l : List Int} {p : Nat → Nat} (R : Rep s l p) : Observes s l where
  length := R.len
  entries i h := by
    rw [getNumber_spec R i (by omega), if_pos (by omega)]
    simp [h]
  last h := by
    have hl : 0 < l.length := List.length_pos_iff.2 h
    have : (s.length : Int) - 1 = ((l.length - 1 : Nat) : Int) := by have := R.len; omega
    rw [getLastNumber, this, R.nget (by omega), v_eq l (by omega), List.getLast_eq_getElem]
  index n hn := by rw [getIndex_ge R ⟨n, hn, Int.le_refl n⟩, if_pos hn]
  distinct := R.nodup
  sorted := ⟨p, fun i hi => ⟨R.iget hi, R.rng i hi⟩, R.mono⟩

theorem step_refines {s : Indexlist} {l : List Int} {p : Nat → Nat} (R : Rep s l p) (op : Op)
    (h : IntSeq.Proper l op) :
    ∃ s' p', s.step op = .ok ((IntSeq.step s.physicallength l op).1, s') ∧
      Rep s' (IntSeq.step s.physicallength l op).2 p' ∧ s'.physicallength = s.physicallength := by
  cases op with
  | add n =>
    by_cases hc : l.length < s.physicallength
    · obtain ⟨s', p', e, R', hp⟩ := addNumber_spec R h hc
      exact ⟨s', p', by simp [Indexlist.step, e, IntSeq.step, hc], by simpa [IntSeq.step, hc] using R', hp⟩
    · exact ⟨s, p, by simp [Indexlist.step, addNumber_full R hc, IntSeq.step, hc],
        by simpa [IntSeq.step, hc] using R, rfl⟩
  | remove n =>
    by_cases hn : n ∈ l
    · obtain ⟨s', p', e, R', hp⟩ := removeNumber_mem R hn
      exact ⟨s', p', by simp [Indexlist.step, e, IntSeq.step], by simpa [IntSeq.step] using R', hp⟩
    · have e := removeNumber_nonmem R hn h
      refine ⟨s, p, by simp [Indexlist.step, e, IntSeq.step], ?_, rfl⟩
      simpa [IntSeq.step, List.erase_of_not_mem hn] using R
  | swap a b =>
    by_cases hm : a ∈ l ∧ b ∈ l
    · obtain ⟨s', p', e, R', hp⟩ := swapNumbers_mem R hm.1 hm.2
      exact ⟨s', p', by simp [Indexlist.step, e, IntSeq.step, hm],
        by simp only [IntSeq.step, hm, and_self, if_true]; exact R', hp⟩
    · have e := swapNumbers_nonmem R h.1 h.2 hm
      exact ⟨s, p, by simp [Indexlist.step, e, IntSeq.step, hm], by simpa [IntSeq.step, hm] using R, rfl⟩

theorem run_refines (ops : List Op) : ∀ {s : Indexlist} {l : List Int} {p : Nat → Nat}, Rep s l p →
    IntSeq.ProperHistory s.physicallength l ops →
    ∃ s' p', s.run ops = .ok ((IntSeq.run s.physicallength l ops).1, s') ∧
      Rep s' (IntSeq.run s.physicallength l ops).2 p' ∧ s'.physicallength = s.physicallength := by
  induction ops with
  | nil => intro s l p R _; exact ⟨s, p, rfl, R, rfl⟩
  | cons op ops ih =>
    intro s l p R h
    obtain ⟨s1, p1, e1, R1, hp1⟩ := step_refines R op h.1
    obtain ⟨s2, p2, e2, R2, hp2⟩ := ih R1 (by rw [hp1]; exact h.2)
    rw [hp1] at e2 R2
    refine ⟨s2, p2, ?_, R2, hp2.trans hp1⟩
    simp [Indexlist.run, IntSeq.run, e1, e2]

/-- **C01.** Start from a freshly initialised list of any capacity and perform any history of correctly
used calls.  The execution is free of undefined behaviour, the return values are those of the plain
sequence, and afterwards every observation agrees with the plain sequence. -/
theorem C01_indexlist_refines_sequence (s₀ : Indexlist) (cap : Nat) (ops : List Op)
    (h : IntSeq.ProperHistory cap [] ops) :
    ∃ s, (s₀.init cap).2.run ops = .ok ((IntSeq.run cap [] ops).1, s) ∧
      Observes s (IntSeq.run cap [] ops).2 := by
  obtain ⟨_, R, hp⟩ := init_rep s₀ (n := cap) (by omega)
  have hp' : (s₀.init cap).2.physicallength = cap := by simpa using hp
  obtain ⟨s', p', e, R', _⟩ := run_refines ops R (by rw [hp']; exact h)
  rw [hp'] at e R'
  exact ⟨s', e, Rep_observes R'⟩

/-- Non-vacuity of C01: a history with insertions in non-monotone order, a swap, removals and an
insertion into a full list. -/
example : IntSeq.ProperHistory 3 [] [.add 5, .add 2, .add 9, .add 4, .swap 9 2, .remove 5, .add 7] ∧
    IntSeq.run 3 [] [.add 5, .add 2, .add 9, .add 4, .swap 9 2, .remove 5, .add 7] =
      ([.SUCCESSFUL_RETURN, .SUCCESSFUL_RETURN, .SUCCESSFUL_RETURN, .RET_INDEXLIST_EXCEEDS_MAX_LENGTH,
        .SUCCESSFUL_RETURN, .SUCCESSFUL_RETURN, .SUCCESSFUL_RETURN], [9, 2, 7]) := by
  refine ⟨?_, by decide⟩
  simp [IntSeq.ProperHistory, IntSeq.Proper, IntSeq.step]

/-- A state reached by a properly used history from a fresh list of capacity `cap`, with contents `l`. -/
def Reachable (cap : Nat) (s : Indexlist) (l : List Int) : Prop :=
  ∃ (s₀ : Indexlist) (ops : List Op) (rs : List ReturnValue),
    IntSeq.ProperHistory cap [] ops ∧ (s₀.init cap).2.run ops = .ok (rs, s) ∧
    l = (IntSeq.run cap [] ops).2

theorem Reachable.rep {cap : Nat} {s : Indexlist} {l : List Int} (h : Reachable cap s l) :
    ∃ p, Rep s l p ∧ s.physicallength = cap := by
  obtain ⟨s₀, ops, rs, hp, hr, rfl⟩ := h
  obtain ⟨_, R, hph⟩ := init_rep s₀ (n := cap) (by omega)
  have hp' : (s₀.init cap).2.physicallength = cap := by simpa using hph
  obtain ⟨s', p', e, R', hq⟩ := run_refines ops R (by rw [hp']; exact hp)
  rw [hp'] at e R'
  rw [hr] at e
  have : s = s' := by
    have := Res.ok.inj e
    exact (Prod.mk.inj this).2
  subst this
  exact ⟨p', R', hq.trans hp'⟩

/-- The full statement of C02: membership is decided for every number. -/
def C02_statement : Prop :=
  ∀ (cap : Nat) (s : Indexlist) (l : List Int), Reachable cap s l →
    ∀ n : Int, s.isMember n = .ok (decide (n ∈ l))

/-- **C02 (violated by the code).** On the list `[3]` the query for 1 reads `iSort[-1]`. -/
theorem C02_membership_violated : ¬ C02_statement := by
  intro h
  obtain ⟨s, e, _⟩ := C01_indexlist_refines_sequence Indexlist.empty 2 [.add 3]
    (by simp [IntSeq.ProperHistory, IntSeq.Proper])
  have hR : Reachable 2 s [3] :=
    ⟨Indexlist.empty, [.add 3], _, by simp [IntSeq.ProperHistory, IntSeq.Proper], e, rfl⟩
  obtain ⟨p, R, _⟩ := hR.rep
  have h1 := h 2 s [3] hR 1
  have h2 := getIndex_lt R (n := 1) (by simp)
  rw [isMember, h2] at h1
  simp at h1

/-- **C02, exact characterisation of what the code does.** A query (membership, position, removal)
for `n` is answered correctly if some stored number is at most `n`; otherwise the code reads outside
of its storage.  (`_partial`: the property demands the correct answer in both cases.) -/
theorem C02_membership_partial {cap : Nat} {s : Indexlist} {l : List Int} (h : Reachable cap s l)
    (n : Int) :
    ((∃ m ∈ l, m ≤ n) →
        s.isMember n = .ok (decide (n ∈ l)) ∧
        s.getIndex n = .ok (if n ∈ l then (l.idxOf n : Int) else -1) ∧
        (n ∉ l → s.removeNumber n = .ok (.SUCCESSFUL_RETURN, s))) ∧
    ((∀ m ∈ l, n < m) →
        s.isMember n = .ub .outOfBounds ∧ s.getIndex n = .ub .outOfBounds ∧
        s.removeNumber n = .ub .outOfBounds) := by
  obtain ⟨p, R, _⟩ := h.rep
  constructor
  · intro hm
    have hg := getIndex_ge R hm
    refine ⟨?_, hg, fun hn => removeNumber_nonmem R hn hm⟩
    rw [isMember, hg]
    by_cases hn : n ∈ l <;> simp [hn]
  · intro hm
    have hg := getIndex_lt R hm
    exact ⟨by rw [isMember, hg]; rfl, hg, removeNumber_lt R hm⟩

/-- Non-vacuity: both cases of `C02_membership_partial` occur in a reachable state. -/
example : ∃ s, Reachable 4 s [7, 3] ∧ (∃ m ∈ [7, 3], m ≤ (5 : Int)) ∧ (∀ m ∈ [7, 3], (1 : Int) < m) := by
  obtain ⟨s, e, _⟩ := C01_indexlist_refines_sequence Indexlist.empty 4 [.add 7, .add 3]
    (by simp [IntSeq.ProperHistory, IntSeq.Proper, IntSeq.step])
  exact ⟨s, ⟨Indexlist.empty, [.add 7, .add 3], _,
    by simp [IntSeq.ProperHistory, IntSeq.Proper, IntSeq.step], e, rfl⟩, by simp, by simp⟩

/-- One call, from any state and with any arguments (proper use or not), never exceeds the capacity
and never changes it. -/
theorem step_capacity {s : Indexlist} {op : Op} {r : ReturnValue} {s' : Indexlist}
    (h : s.step op = .ok (r, s')) (hl : s.length ≤ s.physicallength) :
    s'.length ≤ s'.physicallength ∧ s'.physicallength = s.physicallength := by
  cases op with
  | add n =>
    simp only [Indexlist.step, addNumber] at h
    split at h
    · simp at h; rw [← h.2]; exact ⟨hl, rfl⟩
    · simp only [Res.bind_eq_ok] at h
      obtain ⟨a, _, b, _, c, _, d, _, h⟩ := h
      simp at h; rw [← h.2]; simp; omega
  | remove n =>
    simp only [Indexlist.step, removeNumber, Res.bind_eq_ok] at h
    obtain ⟨a, _, b, _, c, _, h⟩ := h
    split at h
    · simp at h; rw [← h.2]; exact ⟨hl, rfl⟩
    · simp only [Res.bind_eq_ok] at h
      obtain ⟨a, _, b, _, c, _, d, _, h⟩ := h
      simp at h; rw [← h.2]; simp; omega
  | swap x y =>
    simp only [Indexlist.step, swapNumbers, Res.bind_eq_ok] at h
    obtain ⟨a, _, b, _, c, _, d, _, h⟩ := h
    split at h
    · simp at h; rw [← h.2]; exact ⟨hl, rfl⟩
    · simp only [Res.bind_eq_ok] at h
      obtain ⟨a, _, b, _, h⟩ := h
      split at h
      · simp at h; rw [← h.2]; exact ⟨hl, rfl⟩
      · simp only [Res.bind_eq_ok] at h
        obtain ⟨_, _, _, _, _, _, _, _, _, _, _, _, _, _, _, _, h⟩ := h
        simp at h; rw [← h.2]; exact ⟨hl, rfl⟩

/-- **C03.** After any history of calls whatsoever (proper or not) that is free of undefined behaviour
the list holds at most as many numbers as its capacity; an insertion into a full list is reported and
changes nothing; a negative capacity is rejected and changes nothing. -/
theorem C03_capacity (s₀ : Indexlist) (cap : Nat) (ops : List Op) :
    (∀ rs s, (s₀.init cap).2.run ops = .ok (rs, s) →
      s.getLength ≤ cap ∧
      (s.getLength = cap → ∀ n, s.addNumber n = .ok (.RET_INDEXLIST_EXCEEDS_MAX_LENGTH, s))) ∧
    (∀ n : Int, n < 0 → s₀.init n = (.RET_INVALID_ARGUMENTS, s₀)) := by
  constructor
  · have key : ∀ (ops : List Op) (s : Indexlist) rs s', s.length ≤ s.physicallength →
        s.run ops = .ok (rs, s') → s'.length ≤ s'.physicallength ∧ s'.physicallength = s.physicallength := by
      intro ops
      induction ops with
      | nil =>
        intro s rs s' hl h
        simp [Indexlist.run] at h
        rw [← h.2]; exact ⟨hl, rfl⟩
      | cons op ops ih =>
        intro s rs s' hl h
        simp only [Indexlist.run, Res.bind_eq_ok] at h
        obtain ⟨⟨r, s1⟩, h1, ⟨rs2, s2⟩, h2, h3⟩ := h
        obtain ⟨c1, c2⟩ := step_capacity h1 hl
        simp at h3
        rw [← h3.2]
        obtain ⟨d1, d2⟩ := ih s1 rs2 s2 c1 h2
        exact ⟨d1, d2.trans c2⟩
    intro rs s h
    have h0 : (s₀.init cap).2.length = 0 ∧ (s₀.init cap).2.physicallength = cap := by
      simp [Indexlist.init, show ¬ ((cap : Int) < 0) by omega]
    obtain ⟨k1, k2⟩ := key ops _ rs s (by omega) h
    rw [h0.2] at k2
    refine ⟨by unfold getLength; omega, ?_⟩
    intro hl n
    unfold getLength at hl
    rw [addNumber, if_pos (by omega)]
  · intro n hn
    simp [Indexlist.init, hn]

/-- Non-vacuity of C03: a history that fills the list of capacity 1. -/
example : ∃ rs s, (Indexlist.empty.init 1).2.run [.add 4] = .ok (rs, s) ∧ s.getLength = 1 := by
  obtain ⟨s, e, o⟩ := C01_indexlist_refines_sequence Indexlist.empty 1 [.add 4]
    (by simp [IntSeq.ProperHistory, IntSeq.Proper])
  exact ⟨_, s, e, o.length⟩

/-- The full statement of C04: exactly the positions `0..length-1` are readable, all others are
answered by the error value `-RET_INDEXLIST_OUTOFBOUNDS = -15`. -/
def C04_statement : Prop :=
  ∀ (cap : Nat) (s : Indexlist) (l : List Int), Reachable cap s l →
    ∀ i : Int, s.getNumber i = .ok (if 0 ≤ i ∧ i < l.length then l.getD i.toNat 0 else -15)

/-- **C04 (violated by the code).** Reading position `length` of a full list leaves the storage. -/
theorem C04_getNumber_violated : ¬ C04_statement := by
  intro h
  obtain ⟨s, e, _⟩ := C01_indexlist_refines_sequence Indexlist.empty 1 [.add 3]
    (by simp [IntSeq.ProperHistory, IntSeq.Proper])
  have hR : Reachable 1 s [3] :=
    ⟨Indexlist.empty, [.add 3], _, by simp [IntSeq.ProperHistory, IntSeq.Proper], e, rfl⟩
  obtain ⟨p, R, hp⟩ := hR.rep
  have h1 := h 1 s [3] hR 1
  have hl : s.length = 1 := R.len
  have hs : s.number.size = 1 := R.nsz.trans hp
  simp [getNumber, hl, Mem.get, hs] at h1

/-- **C04, what holds**: every position except `length` is treated correctly; at `length` no error value
is returned: the code reads `number[length]`, which is outside the storage if the list is full. -/
theorem C04_getNumber_partial {cap : Nat} {s : Indexlist} {l : List Int} (h : Reachable cap s l)
    (i : Int) :
    (i ≠ l.length → s.getNumber i = .ok (if 0 ≤ i ∧ i < l.length then l.getD i.toNat 0 else -15)) ∧
    (i = l.length → l.length = cap → s.getNumber i = .ub .outOfBounds) := by
  obtain ⟨p, R, hp⟩ := h.rep
  refine ⟨fun hi => getNumber_spec R i hi, ?_⟩
  intro hi hc
  have hl := R.len
  have hs := R.nsz.trans hp
  subst hi
  rw [getNumber, if_neg (by omega), Mem.get, if_neg (by omega)]

example : ∃ s, Reachable 2 s [3] := by
  obtain ⟨s, e, _⟩ := C01_indexlist_refines_sequence Indexlist.empty 2 [.add 3]
    (by simp [IntSeq.ProperHistory, IntSeq.Proper])
  exact ⟨s, ⟨Indexlist.empty, [.add 3], _, by simp [IntSeq.ProperHistory, IntSeq.Proper], e, rfl⟩⟩

end QpOASES.Props
