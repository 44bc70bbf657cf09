import Verif.Proofs.WorkingSet
import Verif.Props.C01_C04_Indexlist

/-!
Properties C05-C10: working sets of bounds (`Kind.bounds`) and constraints (`Kind.constraints`).
-/
namespace QpOASES.Props
open QpOASES QpOASES.Spec QpOASES.Spec.WorkingSet QpOASES.WSP
open SubjectToStatus SubjectToType ReturnValue

/-- `w` is reached from an arbitrary object by `init(n)` and a history of correctly used calls, and `s` is
the abstract working set obtained by the same history. -/
def WSReachable (k : Kind) (n : Nat) (w : WSet) (s : WorkingSet) : Prop :=
  ∃ (w₀ : WSet) (ops : List WSet.Op) (rs : List ReturnValue),
    ProperHistory k (blank n) ops ∧ (w₀.init n).2.run k ops = .ok (rs, w) ∧ s = (run k (blank n) ops).2

theorem consistent_blank (n : Nat) : Consistent (blank n) where
  free_iff x := by simp [blank, isInactive]
  fixed_iff x := by simp [blank, isActive]
  free_nodup := List.nodup_nil
  fixed_nodup := List.nodup_nil

theorem step_n (k : Kind) (s : WorkingSet) (op : WSet.Op) : (step k s op).2.n = s.n := by
  cases op <;> simp only [step, shifted, rotated, relist] <;> (repeat' split) <;> rfl

theorem run_n (k : Kind) (ops : List WSet.Op) : ∀ s : WorkingSet, (run k s ops).2.n = s.n := by
  induction ops with
  | nil => intro s; rfl
  | cons op ops ih => intro s; simp only [run]; rw [ih, step_n]

theorem WSReachable.abs {k : Kind} {n : Nat} {w : WSet} {s : WorkingSet} (h : WSReachable k n w s) :
    Abs w s ∧ Consistent s ∧ s.n = n := by
  obtain ⟨w₀, ops, rs, hp, hr, rfl⟩ := h
  obtain ⟨w', e, A, C⟩ := WSP.run_refines k ops (init_abs w₀ n) (consistent_blank n) hp
  rw [hr] at e
  have : w = w' := (Prod.mk.inj (Res.ok.inj e)).2
  subst this
  exact ⟨A, C, run_n k ops _⟩

theorem getStatus_abs {w : WSet} {s : WorkingSet} (A : Abs w s) {i : Nat} (hi : i < s.n) :
    w.getStatus i = s.status i := by
  unfold WSet.getStatus
  rw [if_pos (by rw [A.n]; omega)]
  simpa using A.status i hi

theorem getType_abs {w : WSet} {s : WorkingSet} (A : Abs w s) {i : Nat} (hi : i < s.n) :
    w.getType i = s.type i := by
  unfold WSet.getType
  rw [if_pos (by rw [A.n]; omega)]
  simpa using A.type i hi

/-- The list of inactive indices of the object reads as the sequence `lf`, that of active indices as `lx`. -/
def Lists (w : WSet) (lf lx : List Int) : Prop := Observes w.inact lf ∧ Observes w.act lx

theorem lists_abs {w : WSet} {s : WorkingSet} (A : Abs w s) : Lists w s.free s.fixed := by
  obtain ⟨p, hp⟩ := A.free
  obtain ⟨q, hq⟩ := A.fixed
  exact ⟨Rep_observes hp, Rep_observes hq⟩

/-- What it means that a working set object `w` of dimension `n` is a proper partition: its two index lists
`lf` (inactive) and `lx` (active) contain exactly the indices whose reported status is inactive resp. lower
or upper, each once and none in both, and if all indices have been set up then together they contain
every index and the reported counts add up to `n`. -/
structure Partitioned (w : WSet) (n : Nat) : Prop where
  dim : w.n = n
  lists : ∃ lf lx, Lists w lf lx ∧ lf.Nodup ∧ lx.Nodup ∧ lf.Disjoint lx ∧
    (∀ x : Int, x ∈ lf ↔ 0 ≤ x ∧ x < n ∧ w.getStatus x = ST_INACTIVE) ∧
    (∀ x : Int, x ∈ lx ↔ 0 ≤ x ∧ x < n ∧ (w.getStatus x = ST_LOWER ∨ w.getStatus x = ST_UPPER)) ∧
    ((∀ i : Nat, i < n → w.getStatus i ≠ ST_UNDEFINED) →
      (lf ++ lx).Perm ((List.range n).map (fun i : Nat => (i : Int))) ∧
      w.getNInact + w.getNAct = n)
  statuses : ∀ i : Nat, i < n →
    w.getStatus i = ST_INACTIVE ∨ w.getStatus i = ST_LOWER ∨ w.getStatus i = ST_UPPER ∨
      w.getStatus i = ST_UNDEFINED

theorem status_cases (k : Kind) (ops : List WSet.Op) : ∀ s : WorkingSet, ProperHistory k s ops →
    (∀ i, i < s.n → isInactive (s.status i) = true ∨ isActive (s.status i) = true ∨ s.status i = ST_UNDEFINED) →
    ∀ i, i < s.n → isInactive ((run k s ops).2.status i) = true ∨ isActive ((run k s ops).2.status i) = true ∨
      (run k s ops).2.status i = ST_UNDEFINED := by
  induction ops with
  | nil => intro s _ h; exact h
  | cons op ops ih =>
    intro s hp h
    have := ih (step k s op).2 hp.2 ?_
    · rw [step_n] at this; exact this
    · rw [step_n]
      have hset : ∀ (i : Int) (st : SubjectToStatus), (isInactive st = true ∨ isActive st = true) →
          ∀ j, j < s.n → isInactive (setAt s.status i st j) = true ∨ isActive (setAt s.status i st j) = true ∨
            setAt s.status i st j = ST_UNDEFINED := by
        intro i st hst j hj
        by_cases hc : (j : Int) = i
        · simp only [setAt, hc, if_true]; rcases hst with h | h <;> simp [h]
        · simp only [setAt, hc, if_false]; exact h j hj
      cases op with
      | setType i t =>
        simp only [step]; split <;> exact h
      | setup i st =>
        simp only [step]
        split
        · split
          · exact hset i st (Or.inl (by assumption))
          · split
            · exact hset i st (Or.inr (by assumption))
            · exact h
        · exact h
      | setupAll st =>
        have := hp.1.2
        simp only [step]
        split <;> (intro i _; simp only; rcases this with h | h <;> simp [h])
      | moveToInact i =>
        simp only [step]; split
        · exact hset i _ (Or.inl rfl)
        · exact h
      | moveToAct i st =>
        simp only [step]; split
        · exact hset i _ (Or.inr (hp.1 (by assumption)).2)
        · exact h
      | flip i =>
        simp only [step]; split
        · split
          · exact hset i _ (Or.inr rfl)
          · split
            · exact hset i _ (Or.inr rfl)
            · exact h
        · exact h
      | swap i j =>
        simp only [step]; split
        · split <;> exact h
        · exact h
      | shift o =>
        simp only [step]; split
        · exact h
        · split
          · exact h
          · split
            · exact h
            · intro i hi
              simp only [shifted, relist]
              split
              · exact h _ (by assumption)
              · exact h _ hi
      | rotate o =>
        simp only [step]; split
        · exact h
        · split
          · exact h
          · intro i hi
            simp only [rotated, relist]
            exact h _ (Nat.mod_lt _ (by omega))

theorem partitioned_of_history (k : Kind) (w₀ : WSet) (n : Nat) (ops : List WSet.Op)
    (h : ProperHistory k (blank n) ops) :
    ∃ w, (w₀.init n).2.run k ops = .ok ((run k (blank n) ops).1, w) ∧ Partitioned w n := by
  obtain ⟨w, e, A, C⟩ := WSP.run_refines k ops (init_abs w₀ n) (consistent_blank n) h
  have hn : (run k (blank n) ops).2.n = n := run_n k ops _
  have hcases := status_cases k ops (blank n) h (by intro i _; right; right; rfl)
  refine ⟨w, e, ?_⟩
  generalize (run k (blank n) ops).2 = s at *
  have hst : ∀ x : Int, 0 ≤ x → x < n → w.getStatus x = s.status x.toNat := by
    intro x h0 h1
    have := getStatus_abs A (i := x.toNat) (by omega)
    rwa [Int.toNat_of_nonneg h0] at this
  have hf : ∀ x : Int, x ∈ s.free ↔ 0 ≤ x ∧ x < n ∧ w.getStatus x = ST_INACTIVE := by
    intro x
    rw [C.free_iff]
    constructor
    · rintro ⟨i, hi, rfl, hs⟩
      exact ⟨by omega, by omega, by rw [getStatus_abs A hi]; exact isInactive_iff.1 hs⟩
    · rintro ⟨h0, h1, hs⟩
      exact ⟨x.toNat, by omega, by omega, by rw [hst x h0 h1] at hs; exact isInactive_iff.2 hs⟩
  have hx : ∀ x : Int, x ∈ s.fixed ↔ 0 ≤ x ∧ x < n ∧ (w.getStatus x = ST_LOWER ∨ w.getStatus x = ST_UPPER) := by
    intro x
    rw [C.fixed_iff]
    constructor
    · rintro ⟨i, hi, rfl, hs⟩
      exact ⟨by omega, by omega, by rw [getStatus_abs A hi]; exact isActive_iff.1 hs⟩
    · rintro ⟨h0, h1, hs⟩
      exact ⟨x.toNat, by omega, by omega, by rw [hst x h0 h1] at hs; exact isActive_iff.2 hs⟩
  refine ⟨A.n.trans hn, ⟨s.free, s.fixed, lists_abs A, C.free_nodup, C.fixed_nodup, ?_, hf, hx, ?_⟩, ?_⟩
  · intro x h1 h2
    rw [hf] at h1; rw [hx] at h2
    obtain ⟨_, _, h1⟩ := h1
    obtain ⟨_, _, h2⟩ := h2
    rw [h1] at h2; simp at h2
  · intro hd
    have hc : s.Complete := by
      intro i hi
      have h1 := hd i (by omega)
      rw [getStatus_abs A hi] at h1
      rcases hcases i (by simp [blank]; omega) with h | h | h
      · exact Or.inl h
      · exact Or.inr h
      · exact absurd h h1
    have hp := partition_perm C hc
    have hl := partition_count C hc
    obtain ⟨of, ox⟩ := lists_abs A
    refine ⟨?_, ?_⟩
    · rw [← hn]; simpa [select] using hp
    · unfold WSet.getNInact WSet.getNAct
      rw [of.length, ox.length, hl, hn]
  · intro i hi
    rw [getStatus_abs A (by omega)]
    rcases hcases i (by simpa [blank] using hi) with h | h | h
    · exact Or.inl (isInactive_iff.1 h)
    · rcases isActive_iff.1 h with h | h <;> simp [h]
    · simp [h]

/-- **C05.** For every dimension and every history of correctly used calls on a `Bounds` object: no
undefined behaviour, the returned codes are those demanded by the specification, and afterwards the free and
fixed variables are a partition that agrees with the statuses. -/
theorem C05_bounds_partition (w₀ : WSet) (n : Nat) (ops : List WSet.Op)
    (h : ProperHistory .bounds (blank n) ops) :
    ∃ w, (w₀.init n).2.run .bounds ops = .ok ((run .bounds (blank n) ops).1, w) ∧ Partitioned w n :=
  partitioned_of_history .bounds w₀ n ops h

/-- **C06.** The same for `Constraints` objects. -/
theorem C06_constraints_partition (w₀ : WSet) (n : Nat) (ops : List WSet.Op)
    (h : ProperHistory .constraints (blank n) ops) :
    ∃ w, (w₀.init n).2.run .constraints ops = .ok ((run .constraints (blank n) ops).1, w) ∧ Partitioned w n :=
  partitioned_of_history .constraints w₀ n ops h

/-- A history exercising all operations. -/
def sampleOps : List WSet.Op :=
  [.setType 0 ST_BOUNDED, .setType 1 ST_UNBOUNDED, .setType 3 ST_EQUALITY, .setupAll ST_INACTIVE,
   .moveToAct 3 ST_UPPER, .moveToAct 0 ST_LOWER, .flip 0, .flip 1, .swap 1 2, .moveToInact 3, .rotate 1,
   .moveToAct 0 ST_LOWER, .shift 2, .moveToInact 9]

instance (s : WorkingSet) (op : WSet.Op) : Decidable (Proper s op) := by
  cases op <;> unfold Proper <;> (try unfold Blank) <;> (try unfold Complete) <;> infer_instance

instance decProperHistory (k : Kind) : (ops : List WSet.Op) → (s : WorkingSet) → Decidable (ProperHistory k s ops)
  | [], _ => isTrue trivial
  | op :: ops, s =>
    have := decProperHistory k ops (step k s op).2
    inferInstanceAs (Decidable (Proper s op ∧ ProperHistory k (step k s op).2 ops))

/-- Non-vacuity of C05/C06. -/
example : ProperHistory .bounds (blank 4) sampleOps ∧ ProperHistory .constraints (blank 4) sampleOps ∧
    (run .bounds (blank 4) sampleOps).2.free = [0, 2] ∧
    (run .bounds (blank 4) sampleOps).2.fixed = [1, 3] := by decide

/-! ### C07 -/

/-- The full statement of C07: a request to move an index that is not in the source set is refused with an
error and without any effect. -/
def C07_statement (k : Kind) : Prop :=
  ∀ (n : Nat) (w : WSet) (s : WorkingSet), WSReachable k n w s →
    (∀ i : Int, ¬ (0 ≤ i ∧ i < n ∧ (w.getStatus i = ST_LOWER ∨ w.getStatus i = ST_UPPER)) →
      ∃ r, r ≠ SUCCESSFUL_RETURN ∧ w.moveToInact i = .ok (r, w)) ∧
    (∀ (i : Int) (st : SubjectToStatus),
      ¬ (0 ≤ i ∧ i < n ∧ w.getStatus i = ST_INACTIVE ∧ (st = ST_LOWER ∨ st = ST_UPPER)) →
      ∃ r, r ≠ SUCCESSFUL_RETURN ∧ w.moveToAct i st = .ok (r, w))

/-- Some uninitialised object (before `init`). -/
def rawWSet : WSet :=
  { n := 0, type := fun _ => ST_UNKNOWN, status := fun _ => ST_UNDEFINED, noLower := true, noUpper := true,
    inact := Indexlist.empty, act := Indexlist.empty }

/-- Contents of the list of inactive indices. -/
def inactContents (w : WSet) : List (Res Int) :=
  (List.range w.inact.length).map (fun i : Nat => w.inact.number.get i)

/-- **C07 (violated by the code), duplicate.** With variable 0 at its lower bound and variable 1 free, freeing
variable 1 again is accepted, and variable 1 is then listed twice as free. -/
theorem C07_duplicate (k : Kind) : ∃ w, (rawWSet.init 2).2.run k [.setup 0 ST_LOWER, .setup 1 ST_INACTIVE, .moveToInact 1] =
    .ok ([SUCCESSFUL_RETURN, SUCCESSFUL_RETURN, SUCCESSFUL_RETURN], w) ∧
    inactContents w = [.ok 1, .ok 1] := by
  cases k
  · exact ⟨_, rfl, by decide⟩
  · exact ⟨_, rfl, by decide⟩

/-- **C07 (violated by the code).** -/
theorem C07_misuse_violated (k : Kind) : ¬ C07_statement k := by
  intro h
  have hp : ProperHistory k (blank 2) [.setup 0 ST_LOWER, .setup 1 ST_INACTIVE] := by
    cases k <;> decide
  obtain ⟨w, e, A, C⟩ := WSP.run_refines k [.setup 0 ST_LOWER, .setup 1 ST_INACTIVE] (init_abs rawWSet 2)
    (consistent_blank 2) hp
  have hR : WSReachable k 2 w _ := ⟨rawWSet, _, _, hp, e, rfl⟩
  obtain ⟨r, hr, h2⟩ := (h 2 w _ hR).1 1 (by
    rw [show w.getStatus 1 = _ from getStatus_abs A (i := 1) (by cases k <;> decide)]
    cases k <;> decide)
  obtain ⟨w', e', _⟩ := C07_duplicate k
  have e2 : (rawWSet.init 2).2.run k [.setup 0 ST_LOWER, .setup 1 ST_INACTIVE, .moveToInact 1] =
      .ok ([SUCCESSFUL_RETURN, SUCCESSFUL_RETURN, r], w) := by
    have e0 : (rawWSet.init 2).2.run k [.setup 0 ST_LOWER, .setup 1 ST_INACTIVE] =
      .ok ([SUCCESSFUL_RETURN, SUCCESSFUL_RETURN], w) := by cases k <;> exact e
    simp only [WSet.run, Res.bind_eq_ok] at e0 ⊢
    obtain ⟨⟨r1, w1⟩, h1, ⟨rs2, w2⟩, ⟨⟨r3, w3⟩, h3, ⟨rs4, w4⟩, h4, h5⟩, h6⟩ := e0
    simp only [Res.ok.injEq, Prod.mk.injEq, List.cons.injEq] at h4 h5 h6
    obtain ⟨rfl, rfl⟩ := h4
    obtain ⟨rfl, rfl⟩ := h5
    obtain ⟨⟨rfl, rfl, _⟩, rfl⟩ := h6
    exact ⟨_, h1, _, ⟨_, h3, _, ⟨_, h2, _, rfl, rfl⟩, rfl⟩, rfl⟩
  rw [e2] at e'
  simp only [Res.ok.injEq, Prod.mk.injEq, List.cons.injEq] at e'
  exact hr e'.1.2.2.1

/-- **C07, what holds.**  In every reachable working set the following misuses are refused with an error and
without effect: moves, setups and flips of indices out of range, flips of indices that are not active, setups
with an invalid status, and swaps of indices with different statuses.  Missing (and false, see
`C07_misuse_violated`): moves of in-range indices that are not in the source set; of those, freeing an index
that is not active but smaller than every active index reads outside of the list's storage. -/
theorem C07_misuse_partial {k : Kind} {n : Nat} {w : WSet} {s : WorkingSet} (h : WSReachable k n w s) :
    (∀ i : Int, ¬ (0 ≤ i ∧ i < n) →
      w.moveToInact i = .ok (RET_INDEX_OUT_OF_BOUNDS, w) ∧
      (∀ st, w.moveToAct i st = .ok (RET_INDEX_OUT_OF_BOUNDS, w)) ∧
      (∀ st, w.setup k i st = .ok (RET_INDEX_OUT_OF_BOUNDS, w)) ∧
      w.flipFixed k i = (RET_INDEX_OUT_OF_BOUNDS, w) ∧
      (∀ j, w.swapFree i j = .ok (RET_INDEX_OUT_OF_BOUNDS, w)) ∧
      (∀ j, w.swapFree j i = .ok (RET_INDEX_OUT_OF_BOUNDS, w)) ∧
      (∀ t, w.setType i t = (RET_INDEX_OUT_OF_BOUNDS, w))) ∧
    (∀ i : Int, 0 ≤ i → i < n → w.getStatus i ≠ ST_LOWER → w.getStatus i ≠ ST_UPPER →
      w.flipFixed k i = (k.flipFailed, w)) ∧
    (∀ (i : Int) (st : SubjectToStatus), 0 ≤ i → i < n → st ≠ ST_INACTIVE → st ≠ ST_LOWER → st ≠ ST_UPPER →
      w.setup k i st = .ok (RET_INVALID_ARGUMENTS, w)) ∧
    (∀ i j : Int, 0 ≤ i → i < n → 0 ≤ j → j < n → w.getStatus i ≠ w.getStatus j →
      w.swapFree i j = .ok (RET_SWAPINDEX_FAILED, w)) ∧
    (∀ i : Int, 0 ≤ i → i < n → (∀ j : Int, 0 ≤ j → j ≤ i → w.getStatus j ≠ ST_LOWER ∧ w.getStatus j ≠ ST_UPPER) →
      w.moveToInact i = .ub .outOfBounds) := by
  obtain ⟨A, C, hsn⟩ := h.abs
  have hn : w.n = n := A.n.trans hsn
  have hgs : ∀ i : Int, 0 ≤ i → i < n → w.getStatus i = w.status i.toNat := by
    intro i h0 h1
    simp [WSet.getStatus, h0, hn, h1]
  refine ⟨?_, ?_, ?_, ?_, ?_⟩
  · intro i hi
    have hi' : ¬ w.inRange i := by unfold WSet.inRange; rw [hn]; exact hi
    have hi'' : ¬ (0 ≤ i ∧ i < (w.n : Int)) := by rw [hn]; exact hi
    refine ⟨?_, ?_, ?_, ?_, ?_, ?_, ?_⟩
    · simp [WSet.moveToInact, hi']
    · intro st; simp [WSet.moveToAct, hi']
    · intro st; simp [WSet.setup, hi']
    · simp [WSet.flipFixed, hi']
    · intro j; simp [WSet.swapFree, hi']
    · intro j; simp [WSet.swapFree, hi']
    · intro t; rw [WSet.setType, if_neg hi'']
  · intro i h0 h1 h2 h3
    rw [hgs i h0 h1] at h2 h3
    have hi' : w.inRange i := by unfold WSet.inRange; rw [hn]; exact ⟨h0, h1⟩
    simp only [WSet.flipFixed, hi', not_true_eq_false, if_false]
  · intro i st h0 h1 h2 h3 h4
    have hi' : w.inRange i := by unfold WSet.inRange; rw [hn]; exact ⟨h0, h1⟩
    simp only [WSet.setup, hi', not_true_eq_false, if_false]
  · intro i j h0 h1 h2 h3 h4
    rw [hgs i h0 h1, hgs j h2 h3] at h4
    have hi' : w.inRange i := by unfold WSet.inRange; rw [hn]; exact ⟨h0, h1⟩
    have hj' : w.inRange j := by unfold WSet.inRange; rw [hn]; exact ⟨h2, h3⟩
    have hn0 : w.n ≠ 0 := by omega
    simp [WSet.swapFree, hi', hj', WSet.swapIndex, hn0, h4]
  · intro i h0 h1 h2
    have hi' : w.inRange i := by unfold WSet.inRange; rw [hn]; exact ⟨h0, h1⟩
    have hn0 : w.n ≠ 0 := by omega
    obtain ⟨p, R⟩ := A.fixed
    have hub := Indexlist.removeNumber_lt R (n := i) (by
      intro m hm
      obtain ⟨j, hj, rfl, hs⟩ := (C.fixed_iff m).1 hm
      by_contra hlt
      have := h2 j (by omega) (by omega)
      rw [getStatus_abs A hj] at this
      rcases isActive_iff.1 hs with h | h
      · exact this.1 h
      · exact this.2 h)
    have hit : ((i.toNat : Nat) : Int) = i := Int.toNat_of_nonneg h0
    simp [WSet.moveToInact, hi', WSet.removeIndex, hn0, WSet.list, hit, hub]

/-- Non-vacuity of `C07_misuse_partial`. -/
example : ∃ w s, WSReachable .bounds 4 w s ∧ w.getStatus 0 = ST_INACTIVE ∧ w.getStatus 1 = ST_UPPER := by
  obtain ⟨w, e, A, C⟩ := WSP.run_refines .bounds sampleOps (init_abs rawWSet 4) (consistent_blank 4) (by decide)
  refine ⟨w, _, ⟨rawWSet, sampleOps, _, by decide, e, rfl⟩, ?_, ?_⟩
  · exact (getStatus_abs A (i := 0) (by decide)).trans (by decide)
  · exact (getStatus_abs A (i := 1) (by decide)).trans (by decide)

/-! ### C08 -/

/-- **C08.** `setupAllFree/Inactive/Lower/Upper` on an object whose indices have not been set up, with any
assignment of types: succeeds, leaves all types, sets every status, and the corresponding list contains
the unbounded indices, then the bounded ones, then the equalities, then the others, each group increasing;
the other list stays empty. -/
theorem C08_setupAll {k : Kind} {n : Nat} {w : WSet} {s : WorkingSet} (h : WSReachable k n w s)
    (hblank : ∀ i : Nat, i < n → w.getStatus i = ST_UNDEFINED) (st : SubjectToStatus)
    (hst : st = ST_INACTIVE ∨ st = ST_LOWER ∨ st = ST_UPPER) :
    ∃ w', w.setupAll k st = .ok (SUCCESSFUL_RETURN, w') ∧
      (∀ i : Nat, i < n → w'.getStatus i = st ∧ w'.getType i = w.getType i) ∧
      (let ofType := fun ts : List SubjectToType =>
          ((List.range n).filter (fun i : Nat => w.getType i ∈ ts)).map (fun i : Nat => (i : Int))
       let order := ofType [ST_UNBOUNDED] ++ ofType [ST_BOUNDED] ++ ofType [ST_EQUALITY] ++
          ofType [ST_UNKNOWN, ST_DISABLED]
       if st = ST_INACTIVE then Lists w' order [] else Lists w' [] order) := by
  obtain ⟨A, C, hsn⟩ := h.abs
  have hb : s.Blank := by
    intro i hi
    rw [← getStatus_abs A hi]; exact hblank i (by omega)
  have hst' : isInactive st = true ∨ isActive st = true := by
    rcases hst with rfl | rfl | rfl <;> simp [isInactive, isActive]
  obtain ⟨hf, hx⟩ := blank_lists C hb
  obtain ⟨w', e, A', C'⟩ := setupAll_refines k A C st hf hx ⟨hb, hst'⟩
  have hret : (step k s (.setupAll st)).1 = SUCCESSFUL_RETURN := by
    simp only [step]; split <;> rfl
  rw [hret] at e
  have hty : ∀ ts : List SubjectToType,
      ((List.range n).filter (fun i : Nat => w.getType i ∈ ts)).map (fun i : Nat => (i : Int)) =
      select n (fun i => decide (s.type i ∈ ts)) := by
    intro ts
    unfold select
    congr 1
    apply List.filter_congr
    intro i hi
    rw [getType_abs A (by rw [hsn]; exact List.mem_range.1 hi)]
  refine ⟨w', e, ?_, ?_⟩
  · intro i hi
    have hn' : i < (step k s (.setupAll st)).2.n := by rw [step_n]; omega
    rw [getStatus_abs A' hn', getType_abs A' hn', getType_abs A (by omega)]
    simp only [step]; split <;> exact ⟨rfl, rfl⟩
  · have hl := lists_abs A'
    simp only [hty]
    have hord : setupOrder s = select n (fun i => decide (s.type i ∈ [ST_UNBOUNDED])) ++
        select n (fun i => decide (s.type i ∈ [ST_BOUNDED])) ++
        select n (fun i => decide (s.type i ∈ [ST_EQUALITY])) ++
        select n (fun i => decide (s.type i ∈ [ST_UNKNOWN, ST_DISABLED])) := by
      unfold setupOrder
      rw [hsn]
      congr 1
      · congr 1
        · congr 1
          · apply select_congr; intro i _; cases s.type i <;> rfl
          · apply select_congr; intro i _; cases s.type i <;> rfl
        · apply select_congr; intro i _; cases s.type i <;> rfl
      · apply select_congr; intro i _; cases s.type i <;> rfl
    rw [← hord]
    by_cases hin : st = ST_INACTIVE
    · subst hin
      simpa [step, isInactive, hx] using hl
    · have : isInactive st = false := by simp [isInactive, hin]
      simpa [step, this, hin, hf] using hl

/-- Non-vacuity of C08: all types present. -/
example : ∃ w s, WSReachable .bounds 5 w s ∧ (∀ i : Nat, i < 5 → w.getStatus i = ST_UNDEFINED) ∧
    (List.range 5).map (fun i : Nat => w.getType i) =
      [ST_EQUALITY, ST_UNKNOWN, ST_BOUNDED, ST_UNBOUNDED, ST_UNBOUNDED] := by
  obtain ⟨w, e, A, C⟩ := WSP.run_refines .bounds
    [.setType 0 ST_EQUALITY, .setType 2 ST_BOUNDED, .setType 3 ST_UNBOUNDED, .setType 4 ST_UNBOUNDED]
    (init_abs rawWSet 5) (consistent_blank 5) (by decide)
  refine ⟨w, _, ⟨rawWSet, _, _, by decide, e, rfl⟩, ?_, ?_⟩
  · intro i hi
    rw [getStatus_abs A (by rw [run_n]; exact hi)]
    simp [run, step, blank, inRange]
  · have : (List.range 5).map (fun i : Nat => w.getType i) = (List.range 5).map (fun i : Nat =>
        (run .bounds (blank 5) [.setType 0 ST_EQUALITY, .setType 2 ST_BOUNDED, .setType 3 ST_UNBOUNDED,
          .setType 4 ST_UNBOUNDED]).2.type i) := by
      apply List.map_congr_left
      intro i hi
      rw [getType_abs A (by rw [run_n]; exact List.mem_range.1 hi)]
    rw [this]; decide

/-! ### C09 -/

/-- Indices in increasing order whose status in `w` is inactive (`act = false`) resp. active. -/
def increasing (w : WSet) (n : Nat) (act : Bool) : List Int :=
  ((List.range n).filter (fun i : Nat =>
    if act then decide (w.getStatus i = ST_LOWER ∨ w.getStatus i = ST_UPPER)
    else decide (w.getStatus i = ST_INACTIVE))).map (fun i : Nat => (i : Int))

theorem increasing_abs {w : WSet} {s : WorkingSet} (A : Abs w s) {n : Nat} (hn : s.n = n) :
    increasing w n false = select n (fun i => isInactive (s.status i)) ∧
    increasing w n true = select n (fun i => isActive (s.status i)) := by
  constructor
  · unfold increasing select
    congr 1
    apply List.filter_congr
    intro i hi
    rw [getStatus_abs A (by rw [hn]; exact List.mem_range.1 hi)]
    cases s.status i <;> rfl
  · unfold increasing select
    congr 1
    apply List.filter_congr
    intro i hi
    rw [getStatus_abs A (by rw [hn]; exact List.mem_range.1 hi)]
    cases s.status i <;> rfl

theorem complete_abs {w : WSet} {s : WorkingSet} {k : Kind} {n : Nat} (h : WSReachable k n w s)
    (hc : ∀ i : Nat, i < n → w.getStatus i ≠ ST_UNDEFINED) : s.Complete := by
  obtain ⟨A, C, hsn⟩ := h.abs
  obtain ⟨w₀, ops, rs, hp, hr, rfl⟩ := h
  have hcases := status_cases k ops (blank n) hp (by intro i _; right; right; rfl)
  intro i hi
  have h1 := hc i (by omega)
  rw [getStatus_abs A hi] at h1
  rcases hcases i (by simp only [blank]; omega) with h | h | h
  · exact Or.inl h
  · exact Or.inr h
  · exact absurd h h1

/-- **C09, rotation.** For every completely set-up working set and every offset `0 ≤ o ≤ n`, `rotate(o)`
succeeds and moves type and status of index `(i+o) mod n` to index `i`.  Both index lists afterwards list
the indices in increasing order (for the trivial offsets `0`, `n` and for `n ≤ 1` nothing changes at all). -/
theorem C09_rotate {k : Kind} {n : Nat} {w : WSet} {s : WorkingSet} (h : WSReachable k n w s)
    (hc : ∀ i : Nat, i < n → w.getStatus i ≠ ST_UNDEFINED) (o : Nat) (ho : o ≤ n) :
    ∃ w', w.rotate o = .ok (SUCCESSFUL_RETURN, w') ∧
      WSReachable k n w' (step k s (.rotate o)).2 ∧
      (∀ i : Nat, i < n → w'.getType i = w.getType ((i + o) % n : Nat) ∧
                          w'.getStatus i = w.getStatus ((i + o) % n : Nat)) ∧
      (0 < o → o < n → Lists w' (increasing w' n false) (increasing w' n true)) ∧
      (o = 0 ∨ o = n ∨ n ≤ 1 → w' = w) := by
  obtain ⟨A, C, hsn⟩ := h.abs
  have hcomp := complete_abs h hc
  obtain ⟨w', e, A', C'⟩ := rotate_refines k A C o hcomp
  have hret : (step k s (.rotate o)).1 = SUCCESSFUL_RETURN := by
    simp only [step]
    rw [if_neg (c := (o : Int) < 0 ∨ (o : Int) > s.n) (by omega)]
    split <;> rfl
  rw [hret] at e
  have hsn' : (step k s (.rotate o)).2.n = n := by rw [step_n]; exact hsn
  refine ⟨w', e, ?_, ?_, ?_, ?_⟩
  · obtain ⟨w₀, ops, rs, hp, hr, rfl⟩ := h
    have hph : ∀ (ops : List WSet.Op) (s : WorkingSet) (op : WSet.Op), ProperHistory k s ops →
        Proper (run k s ops).2 op → ProperHistory k s (ops ++ [op]) ∧
        (run k s (ops ++ [op])).2 = (step k (run k s ops).2 op).2 := by
      intro ops
      induction ops with
      | nil => intro s op _ h2; exact ⟨⟨h2, trivial⟩, rfl⟩
      | cons a ops ih =>
        intro s op h1 h2
        obtain ⟨i1, i2⟩ := ih (step k s a).2 op h1.2 h2
        exact ⟨⟨h1.1, i1⟩, i2⟩
    have hrun : ∀ (ops : List WSet.Op) (w : WSet) (op : WSet.Op) rs w1 r w2, w.run k ops = .ok (rs, w1) →
        w1.step k op = .ok (r, w2) → w.run k (ops ++ [op]) = .ok (rs ++ [r], w2) := by
      intro ops
      induction ops with
      | nil =>
        intro w op rs w1 r w2 h1 h2
        simp only [WSet.run, Res.ok.injEq, Prod.mk.injEq] at h1
        obtain ⟨rfl, rfl⟩ := h1
        simp [WSet.run, h2]
      | cons a ops ih =>
        intro w op rs w1 r w2 h1 h2
        simp only [WSet.run, Res.bind_eq_ok] at h1
        obtain ⟨⟨r3, w3⟩, h3, ⟨r4, w4⟩, h4, h5⟩ := h1
        simp only [Res.ok.injEq, Prod.mk.injEq] at h5
        obtain ⟨rfl, rfl⟩ := h5
        have := ih w3 op r4 w4 r w2 h4 h2
        simp [WSet.run, h3, this]
    obtain ⟨p1, p2⟩ := hph ops (blank n) (.rotate o) hp hcomp
    exact ⟨w₀, ops ++ [.rotate o], _, p1, hrun ops _ (.rotate o) rs w _ w' hr e, p2.symm⟩
  · intro i hi
    have hmod : (i + o) % n < n := Nat.mod_lt _ (by omega)
    rw [getType_abs A' (by omega), getStatus_abs A' (by omega), getType_abs A (by omega),
      getStatus_abs A (by omega)]
    simp only [step]
    by_cases h1 : (o : Int) = 0 ∨ (o : Int) = s.n ∨ s.n ≤ 1
    · rw [if_pos h1]
      have hi0 : (i + o) % n = i := by
        rcases h1 with h1 | h1 | h1
        · have : o = 0 := by omega
          subst this; exact Nat.mod_eq_of_lt hi
        · have : o = n := by omega
          subst this; rw [Nat.add_mod_right]; exact Nat.mod_eq_of_lt hi
        · have : n = 1 := by omega
          subst this; omega
      rw [hi0]; exact ⟨rfl, rfl⟩
    · rw [if_neg h1, if_neg (by omega)]
      simp only [rotated, relist, hsn, Int.toNat_natCast, and_self]
  · intro h1 h2
    obtain ⟨i1, i2⟩ := increasing_abs A' hsn'
    rw [i1, i2]
    have hl := lists_abs A'
    have e1 : (step k s (.rotate o)).2 = rotated s o := by
      simp only [step]
      rw [if_neg (by omega), if_neg (by omega), Int.toNat_natCast]
    rw [e1] at hl ⊢
    simpa [rotated, relist, hsn] using hl
  · intro h1
    have h1' : (o : Int) = 0 ∨ (o : Int) = w.n ∨ w.n ≤ 1 := by
      have := A.n
      omega
    rw [WSet.rotate, if_pos h1'] at e
    exact ((Prod.mk.inj (Res.ok.inj e)).2).symm

/-- **C09, rotating back.** Rotating by `o` and then by `n - o` restores all types and statuses. -/
theorem C09_rotate_back {k : Kind} {n : Nat} {w : WSet} {s : WorkingSet} (h : WSReachable k n w s)
    (hc : ∀ i : Nat, i < n → w.getStatus i ≠ ST_UNDEFINED) (o : Nat) (ho : o ≤ n) :
    ∃ w' w'', w.rotate o = .ok (SUCCESSFUL_RETURN, w') ∧ w'.rotate (n - o : Nat) = .ok (SUCCESSFUL_RETURN, w'') ∧
      ∀ i : Nat, i < n → w''.getType i = w.getType i ∧ w''.getStatus i = w.getStatus i := by
  obtain ⟨w', e1, r1, m1, _, _⟩ := C09_rotate h hc o ho
  obtain ⟨w'', e2, r2, m2, _, _⟩ := C09_rotate r1 (by
    intro i hi
    rw [(m1 i hi).2]
    exact hc _ (Nat.mod_lt _ (by omega))) (n - o) (by omega)
  refine ⟨w', w'', e1, e2, ?_⟩
  intro i hi
  have hmod : (i + (n - o)) % n < n := Nat.mod_lt _ (by omega)
  have : ((i + (n - o)) % n + o) % n = i := by
    rw [Nat.mod_add_mod, Nat.add_assoc, Nat.sub_add_cancel ho, Nat.add_mod_right]
    exact Nat.mod_eq_of_lt hi
  have h2 := m2 i hi
  have h1 := m1 _ hmod
  rw [this] at h1
  exact ⟨h2.1.trans h1.1, h2.2.trans h1.2⟩

/-- **C09, shift.** For every completely set-up working set and every offset `0 < o ≤ n/2` dividing `n`,
`shift(o)` succeeds, moves type and status of index `i+o` to index `i`, leaves the last `o` entries
unchanged, and lists the indices in increasing order. -/
theorem C09_shift {k : Kind} {n : Nat} {w : WSet} {s : WorkingSet} (h : WSReachable k n w s)
    (hc : ∀ i : Nat, i < n → w.getStatus i ≠ ST_UNDEFINED) (o : Nat) (ho : 0 < o) (ho2 : 2 * o ≤ n)
    (hd : o ∣ n) :
    ∃ w', w.shift o = .ok (SUCCESSFUL_RETURN, w') ∧
      (∀ i : Nat, i + o < n → w'.getType i = w.getType (i + o : Nat) ∧ w'.getStatus i = w.getStatus (i + o : Nat)) ∧
      (∀ i : Nat, i < n → n ≤ i + o → w'.getType i = w.getType i ∧ w'.getStatus i = w.getStatus i) ∧
      Lists w' (increasing w' n false) (increasing w' n true) := by
  obtain ⟨A, C, hsn⟩ := h.abs
  have hcomp := complete_abs h hc
  obtain ⟨w', e, A', C'⟩ := shift_refines k A C o hcomp
  have hd' : (o : Int) ∣ (s.n : Int) := by rw [hsn]; exact Int.ofNat_dvd.2 hd
  have e1 : step k s (.shift o) = (SUCCESSFUL_RETURN, shifted s o) := by
    simp only [step]
    rw [if_neg (by omega), if_neg (by omega), if_neg (not_not.2 hd'), Int.toNat_natCast]
  rw [e1] at e A'
  refine ⟨w', e, ?_, ?_, ?_⟩
  · intro i hi
    rw [getType_abs A' (by simp only [shifted, relist]; omega), getStatus_abs A' (by simp only [shifted, relist]; omega),
      getType_abs A (by omega), getStatus_abs A (by omega)]
    simp [shifted, relist, hsn, hi]
  · intro i hi hi2
    rw [getType_abs A' (by simp only [shifted, relist]; omega), getStatus_abs A' (by simp only [shifted, relist]; omega),
      getType_abs A (by omega), getStatus_abs A (by omega)]
    have : ¬ i + o < n := by omega
    simp [shifted, relist, hsn, this]
  · obtain ⟨i1, i2⟩ := increasing_abs A' (show (shifted s o).n = n from hsn)
    rw [i1, i2]
    have hl := lists_abs A'
    simpa [shifted, relist, hsn] using hl

/-- **C09, invalid offsets** are rejected without any change, for every object whatsoever. -/
theorem C09_invalid_offsets (w : WSet) (o : Int) (hn : 1 < w.n) :
    ((o < 0 ∨ o > w.n) → w.rotate o = .ok (RET_INDEX_OUT_OF_BOUNDS, w)) ∧
    ((o < 0 ∨ 2 * o > w.n) → w.shift o = .ok (RET_INDEX_OUT_OF_BOUNDS, w)) ∧
    (0 < o → 2 * o ≤ w.n → ¬ o ∣ (w.n : Int) → w.shift o = .ok (RET_INVALID_ARGUMENTS, w)) := by
  refine ⟨?_, ?_, ?_⟩
  · intro h
    rw [WSet.rotate, if_neg (by omega), if_pos h]
  · intro h
    rw [WSet.shift, if_neg (by omega), if_pos (by omega)]
  · intro h1 h2 h3
    rw [WSet.shift, if_neg (by omega), if_neg (by omega), if_pos (fun h => h3 (Int.dvd_of_emod_eq_zero h))]

/-- Non-vacuity of the C09 theorems: a completely set-up working set with mixed statuses. -/
example : ∃ w s, WSReachable .constraints 4 w s ∧ (∀ i : Nat, i < 4 → w.getStatus i ≠ ST_UNDEFINED) ∧
    (List.range 4).map (fun i : Nat => w.getStatus i) = [ST_LOWER, ST_INACTIVE, ST_UPPER, ST_INACTIVE] := by
  obtain ⟨w, e, A, C⟩ := WSP.run_refines .constraints
    [.setup 0 ST_LOWER, .setup 2 ST_UPPER, .setup 3 ST_INACTIVE, .setup 1 ST_INACTIVE]
    (init_abs rawWSet 4) (consistent_blank 4) (by decide)
  have hs : (List.range 4).map (fun i : Nat => w.getStatus i) = (List.range 4).map (fun i : Nat =>
      (run .constraints (blank 4) [.setup 0 ST_LOWER, .setup 2 ST_UPPER, .setup 3 ST_INACTIVE,
        .setup 1 ST_INACTIVE]).2.status i) := by
    apply List.map_congr_left
    intro i hi
    rw [getStatus_abs A (by rw [run_n]; exact List.mem_range.1 hi)]
  have hs2 := hs.trans (show _ = [ST_LOWER, ST_INACTIVE, ST_UPPER, ST_INACTIVE] by decide)
  refine ⟨w, _, ⟨rawWSet, _, _, by decide, e, rfl⟩, ?_, hs2⟩
  intro i hi
  have : w.getStatus i ∈ (List.range 4).map (fun i : Nat => w.getStatus i) :=
    List.mem_map.2 ⟨i, List.mem_range.2 hi, rfl⟩
  rw [hs2] at this
  intro hc
  rw [hc] at this
  simp at this

/-! ### C10 -/

/-- **C10.** Flipping an index at its lower (upper) limit succeeds and puts it at its upper (lower) limit;
types, all other statuses and both index lists stay as they are; flipping twice restores the object.
Any other index is rejected without effect. -/
theorem C10_flip (k : Kind) (w : WSet) (i : Int) :
    let r := w.flipFixed k i
    ((0 ≤ i ∧ i < w.n ∧ (w.getStatus i = ST_LOWER ∨ w.getStatus i = ST_UPPER)) →
      r.1 = SUCCESSFUL_RETURN ∧
      r.2.getStatus i = (if w.getStatus i = ST_LOWER then ST_UPPER else ST_LOWER) ∧
      (∀ j, j ≠ i → r.2.getStatus j = w.getStatus j) ∧
      (∀ j, r.2.getType j = w.getType j) ∧ r.2.n = w.n ∧ r.2.inact = w.inact ∧ r.2.act = w.act ∧
      r.2.flipFixed k i = (SUCCESSFUL_RETURN, w)) ∧
    (¬ (0 ≤ i ∧ i < w.n ∧ (w.getStatus i = ST_LOWER ∨ w.getStatus i = ST_UPPER)) →
      r.1 ≠ SUCCESSFUL_RETURN ∧ r.2 = w) := by
  intro r
  constructor
  · rintro ⟨h0, h1, h2⟩
    have hi : w.inRange i := ⟨h0, h1⟩
    have hgs : ∀ (w : WSet), w.inRange i → w.getStatus i = w.status i.toNat := by
      intro w h; simp [WSet.getStatus, h.1, h.2]
    rw [hgs w hi] at h2
    have hupd : ∀ (f : Nat → SubjectToStatus) a b (m : Nat), f m = b → WSet.upd (WSet.upd f m a) m b = f := by
      intro f a b m hf
      funext j
      by_cases hj : j = m
      · subst hj; simp [WSet.upd, hf]
      · simp [WSet.upd, hj]
    have key : ∀ a b, w.status i.toNat = a → (a = ST_LOWER ∧ b = ST_UPPER ∨ a = ST_UPPER ∧ b = ST_LOWER) →
        r = (SUCCESSFUL_RETURN, { w with status := WSet.upd w.status i.toNat b }) ∧
        WSet.flipFixed k { w with status := WSet.upd w.status i.toNat b } i = (SUCCESSFUL_RETURN, w) := by
      intro a b ha hab
      have hi2 : WSet.inRange { w with status := WSet.upd w.status i.toNat b } i := hi
      rcases hab with ⟨rfl, rfl⟩ | ⟨rfl, rfl⟩
      · constructor
        · simp only [r, WSet.flipFixed, hi, not_true_eq_false, if_false, ha]
        · simp only [WSet.flipFixed, hi2, not_true_eq_false, if_false]
          rw [show WSet.upd w.status i.toNat ST_UPPER i.toNat = ST_UPPER from if_pos rfl]
          simp only [hupd _ _ _ _ ha]
      · constructor
        · simp only [r, WSet.flipFixed, hi, not_true_eq_false, if_false, ha]
        · simp only [WSet.flipFixed, hi2, not_true_eq_false, if_false]
          rw [show WSet.upd w.status i.toNat ST_LOWER i.toNat = ST_LOWER from if_pos rfl]
          simp only [hupd _ _ _ _ ha]
    obtain ⟨b, hb, hr, hff⟩ : ∃ b, b = (if w.status i.toNat = ST_LOWER then ST_UPPER else ST_LOWER) ∧
        r = (SUCCESSFUL_RETURN, { w with status := WSet.upd w.status i.toNat b }) ∧
        WSet.flipFixed k { w with status := WSet.upd w.status i.toNat b } i = (SUCCESSFUL_RETURN, w) := by
      rcases h2 with h2 | h2
      · exact ⟨ST_UPPER, by simp [h2], key _ _ h2 (Or.inl ⟨rfl, rfl⟩)⟩
      · exact ⟨ST_LOWER, by simp [h2], key _ _ h2 (Or.inr ⟨rfl, rfl⟩)⟩
    rw [hr]
    refine ⟨rfl, ?_, ?_, ?_, rfl, rfl, rfl, hff⟩
    · rw [hgs w hi, hgs _ (show WSet.inRange { w with status := WSet.upd w.status i.toNat b } i from hi), ← hb]
      simp [WSet.upd]
    · intro j hj
      simp only [WSet.getStatus]
      by_cases hc : 0 ≤ j ∧ j < (w.n : Int)
      · rw [if_pos hc, if_pos hc]
        simp only [WSet.upd]
        rw [if_neg (by omega)]
      · rw [if_neg hc, if_neg hc]
    · intro j; rfl
  · intro h
    by_cases hi : w.inRange i
    · have hgs : w.getStatus i = w.status i.toNat := by
        simp [WSet.getStatus, hi.1, hi.2]
      have h' : ¬ (w.status i.toNat = ST_LOWER ∨ w.status i.toNat = ST_UPPER) := by
        intro hc; exact h ⟨hi.1, hi.2, by rw [hgs]; exact hc⟩
      have : r = (k.flipFailed, w) := by
        simp only [r, WSet.flipFixed, hi, not_true_eq_false, if_false]
        split <;> first | rfl | (exfalso; apply h'; simp [*])
      rw [this]
      exact ⟨by cases k <;> simp [Kind.flipFailed], rfl⟩
    · have : r = (RET_INDEX_OUT_OF_BOUNDS, w) := by simp [r, WSet.flipFixed, hi]
      rw [this]; simp

/-- Non-vacuity of C10. -/
example : let w : WSet := { rawWSet with n := 2, status := fun i => if i = 1 then ST_LOWER else ST_INACTIVE }
    (0 ≤ (1 : Int) ∧ (1 : Int) < w.n ∧ (w.getStatus 1 = ST_LOWER ∨ w.getStatus 1 = ST_UPPER)) ∧
    ¬ (w.getStatus 0 = ST_LOWER ∨ w.getStatus 0 = ST_UPPER) := by decide

end QpOASES.Props
