import Verif.Spec.WorkingSet
import Verif.Proofs.Indexlist
import Mathlib.Data.List.Nodup
import Mathlib.Data.List.Perm.Basic
import Mathlib.Data.List.Perm.Subperm

namespace QpOASES
open SubjectToStatus SubjectToType ReturnValue
open QpOASES.Spec QpOASES.Spec.WorkingSet
open QpOASES.Indexlist (Rep)

/-- The object `w` represents the abstract working set `s`. -/
structure Abs (w : WSet) (s : WorkingSet) : Prop where
  n : w.n = s.n
  type : ∀ i, i < s.n → w.type i = s.type i
  status : ∀ i, i < s.n → w.status i = s.status i
  free : ∃ p, Rep w.inact s.free p
  fixed : ∃ p, Rep w.act s.fixed p
  capf : w.inact.physicallength = s.n
  capx : w.act.physicallength = s.n

namespace WSP

theorem isInactive_iff {s : SubjectToStatus} : isInactive s = true ↔ s = ST_INACTIVE := by
  simp [isInactive]

theorem isActive_iff {s : SubjectToStatus} : isActive s = true ↔ s = ST_LOWER ∨ s = ST_UPPER := by
  simp [isActive]

theorem inRange_iff {w : WorkingSet} {i : Int} : w.inRange i = true ↔ 0 ≤ i ∧ i < w.n := by
  simp [WorkingSet.inRange]

theorem mem_select {n : Nat} {p : Nat → Bool} {x : Int} :
    x ∈ select n p ↔ ∃ i : Nat, i < n ∧ x = i ∧ p i = true := by
  simp only [select, List.mem_map, List.mem_filter, List.mem_range]
  constructor
  · rintro ⟨i, ⟨h1, h2⟩, rfl⟩; exact ⟨i, h1, rfl, h2⟩
  · rintro ⟨i, h1, rfl, h2⟩; exact ⟨i, ⟨h1, h2⟩, rfl⟩

theorem nodup_select (n : Nat) (p : Nat → Bool) : (select n p).Nodup := by
  unfold select
  apply List.Nodup.map
  · intro a b h; exact Int.ofNat.inj h
  · exact List.Nodup.filter _ List.nodup_range

theorem length_select_true (n : Nat) : (select n (fun _ => true)).length = n := by
  simp [select]

theorem length_le_of_range {l : List Int} {n : Nat} (h : l.Nodup)
    (hr : ∀ x ∈ l, ∃ i : Nat, i < n ∧ x = i) : l.length ≤ n := by
  have : l ⊆ select n (fun _ => true) := by
    intro x hx
    obtain ⟨i, hi, rfl⟩ := hr x hx
    exact mem_select.2 ⟨i, hi, rfl, rfl⟩
  have := (List.subperm_of_subset h this).length_le
  rwa [length_select_true] at this

variable {s : WorkingSet}

theorem room_free (C : Consistent s) {i : Nat} (hi : i < s.n) (h : isInactive (s.status i) = false) :
    (i : Int) ∉ s.free ∧ s.free.length < s.n := by
  have hn : (i : Int) ∉ s.free := by
    intro hm
    obtain ⟨j, _, hj, hs⟩ := (C.free_iff i).1 hm
    have : i = j := by omega
    subst this; rw [h] at hs; exact absurd hs (by simp)
  refine ⟨hn, ?_⟩
  have := length_le_of_range (l := (i : Int) :: s.free) (n := s.n)
    (List.nodup_cons.2 ⟨hn, C.free_nodup⟩) (by
      intro x hx
      rcases List.mem_cons.1 hx with rfl | hx
      · exact ⟨i, hi, rfl⟩
      · obtain ⟨j, hj, rfl, _⟩ := (C.free_iff x).1 hx
        exact ⟨j, hj, rfl⟩)
  simp only [List.length_cons] at this; omega

theorem room_fixed (C : Consistent s) {i : Nat} (hi : i < s.n) (h : isActive (s.status i) = false) :
    (i : Int) ∉ s.fixed ∧ s.fixed.length < s.n := by
  have hn : (i : Int) ∉ s.fixed := by
    intro hm
    obtain ⟨j, _, hj, hs⟩ := (C.fixed_iff i).1 hm
    have : i = j := by omega
    subst this; rw [h] at hs; exact absurd hs (by simp)
  refine ⟨hn, ?_⟩
  have := length_le_of_range (l := (i : Int) :: s.fixed) (n := s.n)
    (List.nodup_cons.2 ⟨hn, C.fixed_nodup⟩) (by
      intro x hx
      rcases List.mem_cons.1 hx with rfl | hx
      · exact ⟨i, hi, rfl⟩
      · obtain ⟨j, hj, rfl, _⟩ := (C.fixed_iff x).1 hx
        exact ⟨j, hj, rfl⟩)
  simp only [List.length_cons] at this; omega

theorem setAt_self {α : Type} (f : Nat → α) (i : Nat) (x : α) : setAt f (i : Int) x i = x := by
  simp [setAt]
theorem setAt_ne {α : Type} (f : Nat → α) {i k : Nat} (x : α) (h : k ≠ i) : setAt f (i : Int) x k = f k := by
  simp [setAt, Int.ofNat_inj, h]
theorem setAt_eq_upd {α : Type} (f : Nat → α) (i : Nat) (x : α) : setAt f (i : Int) x = WSet.upd f i x := by
  funext k; simp [setAt, WSet.upd, Int.ofNat_inj]

/-! ### Consistency of the specification is preserved by proper steps -/

theorem consistent_blank (n : Nat) : Consistent (blank n) where
  free_iff x := by simp [blank, isInactive]
  fixed_iff x := by simp [blank, isActive]
  free_nodup := by simp [blank]
  fixed_nodup := by simp [blank]

/-- Setting the status of `i` and appending/removing it from the lists accordingly. -/
theorem consistent_setup_free (C : Consistent s) {i : Nat} (hi : i < s.n)
    (h : s.status i = ST_UNDEFINED) :
    Consistent { s with status := setAt s.status i ST_INACTIVE, free := s.free ++ [(i : Int)] } where
  free_iff x := by
    simp only [List.mem_append, List.mem_singleton, C.free_iff]
    constructor
    · rintro (⟨j, hj, rfl, hs⟩ | rfl)
      · have : j ≠ i := by rintro rfl; rw [h] at hs; simp [isInactive] at hs
        exact ⟨j, hj, rfl, by rw [setAt_ne _ _ this]; exact hs⟩
      · exact ⟨i, hi, rfl, by rw [setAt_self]; rfl⟩
    · rintro ⟨j, hj, rfl, hs⟩
      by_cases hji : j = i
      · right; rw [hji]
      · left; rw [setAt_ne _ _ hji] at hs; exact ⟨j, hj, rfl, hs⟩
  fixed_iff x := by
    simp only [C.fixed_iff]
    constructor
    · rintro ⟨j, hj, rfl, hs⟩
      have : j ≠ i := by rintro rfl; rw [h] at hs; simp [isActive] at hs
      exact ⟨j, hj, rfl, by rw [setAt_ne _ _ this]; exact hs⟩
    · rintro ⟨j, hj, rfl, hs⟩
      have : j ≠ i := by rintro rfl; rw [setAt_self] at hs; simp [isActive] at hs
      rw [setAt_ne _ _ this] at hs; exact ⟨j, hj, rfl, hs⟩
  free_nodup := by
    have := (room_free C hi (by rw [h]; rfl)).1
    rw [List.nodup_append]
    refine ⟨C.free_nodup, by simp, ?_⟩
    intro a ha b hb
    simp at hb; subst hb; rintro rfl; exact this ha
  fixed_nodup := C.fixed_nodup

theorem consistent_setup_fixed (C : Consistent s) {i : Nat} (hi : i < s.n) {st : SubjectToStatus}
    (hst : isActive st = true) (h : s.status i = ST_UNDEFINED) :
    Consistent { s with status := setAt s.status i st, fixed := s.fixed ++ [(i : Int)] } where
  fixed_iff x := by
    simp only [List.mem_append, List.mem_singleton, C.fixed_iff]
    constructor
    · rintro (⟨j, hj, rfl, hs⟩ | rfl)
      · have : j ≠ i := by rintro rfl; rw [h] at hs; simp [isActive] at hs
        exact ⟨j, hj, rfl, by rw [setAt_ne _ _ this]; exact hs⟩
      · exact ⟨i, hi, rfl, by rw [setAt_self]; exact hst⟩
    · rintro ⟨j, hj, rfl, hs⟩
      by_cases hji : j = i
      · right; rw [hji]
      · left; rw [setAt_ne _ _ hji] at hs; exact ⟨j, hj, rfl, hs⟩
  free_iff x := by
    have hst' : isInactive st = false := by
      rcases isActive_iff.1 hst with rfl | rfl <;> rfl
    simp only [C.free_iff]
    constructor
    · rintro ⟨j, hj, rfl, hs⟩
      have : j ≠ i := by rintro rfl; rw [h] at hs; simp [isInactive] at hs
      exact ⟨j, hj, rfl, by rw [setAt_ne _ _ this]; exact hs⟩
    · rintro ⟨j, hj, rfl, hs⟩
      have : j ≠ i := by rintro rfl; rw [setAt_self, hst'] at hs; simp at hs
      rw [setAt_ne _ _ this] at hs; exact ⟨j, hj, rfl, hs⟩
  fixed_nodup := by
    have := (room_fixed C hi (by rw [h]; rfl)).1
    rw [List.nodup_append]
    refine ⟨C.fixed_nodup, by simp, ?_⟩
    intro a ha b hb
    simp at hb; subst hb; rintro rfl; exact this ha
  free_nodup := C.free_nodup

/-- Taking an active index out of the lists. -/
theorem consistent_drop_fixed (C : Consistent s) {i : Nat} (hi : i < s.n)
    (h : isActive (s.status i) = true) :
    Consistent { s with status := setAt s.status i ST_UNDEFINED, fixed := s.fixed.erase (i : Int) } where
  free_iff x := by
    simp only [C.free_iff]
    constructor
    · rintro ⟨j, hj, rfl, hs⟩
      have : j ≠ i := by
        rintro rfl
        rcases isActive_iff.1 h with h | h <;> (rw [h] at hs; simp [isInactive] at hs)
      exact ⟨j, hj, rfl, by rw [setAt_ne _ _ this]; exact hs⟩
    · rintro ⟨j, hj, rfl, hs⟩
      have : j ≠ i := by rintro rfl; rw [setAt_self] at hs; simp [isInactive] at hs
      rw [setAt_ne _ _ this] at hs; exact ⟨j, hj, rfl, hs⟩
  fixed_iff x := by
    simp only
    rw [List.Nodup.mem_erase_iff C.fixed_nodup, C.fixed_iff]
    constructor
    · rintro ⟨hne, j, hj, rfl, hs⟩
      have : j ≠ i := by rintro rfl; exact hne rfl
      exact ⟨j, hj, rfl, by rw [setAt_ne _ _ this]; exact hs⟩
    · rintro ⟨j, hj, rfl, hs⟩
      have : j ≠ i := by rintro rfl; rw [setAt_self] at hs; simp [isActive] at hs
      rw [setAt_ne _ _ this] at hs
      exact ⟨by omega, j, hj, rfl, hs⟩
  free_nodup := C.free_nodup
  fixed_nodup := C.fixed_nodup.erase _

theorem consistent_drop_free (C : Consistent s) {i : Nat} (hi : i < s.n)
    (h : isInactive (s.status i) = true) :
    Consistent { s with status := setAt s.status i ST_UNDEFINED, free := s.free.erase (i : Int) } where
  fixed_iff x := by
    simp only [C.fixed_iff]
    constructor
    · rintro ⟨j, hj, rfl, hs⟩
      have : j ≠ i := by
        rintro rfl
        rw [isInactive_iff.1 h] at hs; simp [isActive] at hs
      exact ⟨j, hj, rfl, by rw [setAt_ne _ _ this]; exact hs⟩
    · rintro ⟨j, hj, rfl, hs⟩
      have : j ≠ i := by rintro rfl; rw [setAt_self] at hs; simp [isActive] at hs
      rw [setAt_ne _ _ this] at hs; exact ⟨j, hj, rfl, hs⟩
  free_iff x := by
    simp only
    rw [List.Nodup.mem_erase_iff C.free_nodup, C.free_iff]
    constructor
    · rintro ⟨hne, j, hj, rfl, hs⟩
      have : j ≠ i := by rintro rfl; exact hne rfl
      exact ⟨j, hj, rfl, by rw [setAt_ne _ _ this]; exact hs⟩
    · rintro ⟨j, hj, rfl, hs⟩
      have : j ≠ i := by rintro rfl; rw [setAt_self] at hs; simp [isInactive] at hs
      rw [setAt_ne _ _ this] at hs
      exact ⟨by omega, j, hj, rfl, hs⟩
  free_nodup := C.free_nodup.erase _
  fixed_nodup := C.fixed_nodup

theorem consistent_relist (s : WorkingSet) : Consistent (relist s) where
  free_iff x := by simp only [relist]; exact mem_select
  fixed_iff x := by simp only [relist]; exact mem_select
  free_nodup := nodup_select _ _
  fixed_nodup := nodup_select _ _

theorem setAt_setAt {α : Type} (f : Nat → α) (i : Int) (x y : α) : setAt (setAt f i x) i y = setAt f i y := by
  funext k; simp only [setAt]; split <;> simp_all

/-! ### The elementary operations refine the specification -/

variable {w : WSet}

theorem abs_status (A : Abs w s) {i : Nat} (st : SubjectToStatus) :
    ∀ k, k < s.n → WSet.upd w.status i st k = setAt s.status (i : Int) st k := by
  intro k hk
  rw [setAt_eq_upd]
  simp only [WSet.upd]
  split
  · rfl
  · exact A.status k hk

theorem addIndex_inact (A : Abs w s) (C : Consistent s) {i : Nat} (hi : i < s.n)
    {st : SubjectToStatus} (h : isInactive (s.status i) = false) (hst : s.status i ≠ st) :
    ∃ w', w.addIndex .inact i st = .ok (SUCCESSFUL_RETURN, w') ∧
      Abs w' { s with status := setAt s.status i st, free := s.free ++ [(i : Int)] } := by
  obtain ⟨p, R⟩ := A.free
  obtain ⟨hm, hlen⟩ := room_free C hi h
  obtain ⟨l', p', e, R', hc⟩ := Indexlist.addNumber_spec R hm (by rw [A.capf]; exact hlen)
  refine ⟨{ w with status := WSet.upd w.status i st, inact := l' }, ?_, ?_⟩
  · unfold WSet.addIndex
    rw [if_neg (by have := A.n; omega), if_neg (by rw [A.status i hi]; exact hst)]
    simp only [WSet.list, e, Res.bind_ok, WSet.setList]
    simp
  · exact ⟨A.n, A.type, abs_status A st, ⟨p', R'⟩, A.fixed, hc.trans A.capf, A.capx⟩

theorem addIndex_act (A : Abs w s) (C : Consistent s) {i : Nat} (hi : i < s.n)
    {st : SubjectToStatus} (h : isActive (s.status i) = false) (hst : s.status i ≠ st) :
    ∃ w', w.addIndex .act i st = .ok (SUCCESSFUL_RETURN, w') ∧
      Abs w' { s with status := setAt s.status i st, fixed := s.fixed ++ [(i : Int)] } := by
  obtain ⟨p, R⟩ := A.fixed
  obtain ⟨hm, hlen⟩ := room_fixed C hi h
  obtain ⟨l', p', e, R', hc⟩ := Indexlist.addNumber_spec R hm (by rw [A.capx]; exact hlen)
  refine ⟨{ w with status := WSet.upd w.status i st, act := l' }, ?_, ?_⟩
  · unfold WSet.addIndex
    rw [if_neg (by have := A.n; omega), if_neg (by rw [A.status i hi]; exact hst)]
    simp only [WSet.list, e, Res.bind_ok, WSet.setList]
    simp
  · exact ⟨A.n, A.type, abs_status A st, A.free, ⟨p', R'⟩, A.capf, hc.trans A.capx⟩

theorem removeIndex_act (A : Abs w s) (C : Consistent s) {i : Nat} (hi : i < s.n)
    (h : isActive (s.status i) = true) :
    ∃ w', w.removeIndex .act i = .ok (SUCCESSFUL_RETURN, w') ∧
      Abs w' { s with status := setAt s.status i ST_UNDEFINED, fixed := s.fixed.erase (i : Int) } := by
  obtain ⟨p, R⟩ := A.fixed
  have hm : (i : Int) ∈ s.fixed := (C.fixed_iff _).2 ⟨i, hi, rfl, h⟩
  obtain ⟨l', p', e, R', hc⟩ := Indexlist.removeNumber_mem R hm
  refine ⟨{ w with status := WSet.upd w.status i ST_UNDEFINED, act := l' }, ?_, ?_⟩
  · unfold WSet.removeIndex
    rw [if_neg (by have := A.n; omega)]
    simp only [WSet.list, e, Res.bind_ok, WSet.setList]
    simp
  · exact ⟨A.n, A.type, abs_status A _, A.free, ⟨p', R'⟩, A.capf, hc.trans A.capx⟩

theorem removeIndex_inact (A : Abs w s) (C : Consistent s) {i : Nat} (hi : i < s.n)
    (h : isInactive (s.status i) = true) :
    ∃ w', w.removeIndex .inact i = .ok (SUCCESSFUL_RETURN, w') ∧
      Abs w' { s with status := setAt s.status i ST_UNDEFINED, free := s.free.erase (i : Int) } := by
  obtain ⟨p, R⟩ := A.free
  have hm : (i : Int) ∈ s.free := (C.free_iff _).2 ⟨i, hi, rfl, h⟩
  obtain ⟨l', p', e, R', hc⟩ := Indexlist.removeNumber_mem R hm
  refine ⟨{ w with status := WSet.upd w.status i ST_UNDEFINED, inact := l' }, ?_, ?_⟩
  · unfold WSet.removeIndex
    rw [if_neg (by have := A.n; omega)]
    simp only [WSet.list, e, Res.bind_ok, WSet.setList]
    simp
  · exact ⟨A.n, A.type, abs_status A _, ⟨p', R'⟩, A.fixed, hc.trans A.capf, A.capx⟩

theorem abs_inRange (A : Abs w s) (i : Int) : w.inRange i ↔ s.inRange i = true := by
  rw [inRange_iff, WSet.inRange, A.n]

/-- setup -/
theorem setup_refines (k : Kind) (A : Abs w s) (C : Consistent s) (i : Int) (st : SubjectToStatus)
    (h : Proper s (.setup i st)) :
    ∃ w', w.setup k i st = .ok ((step k s (.setup i st)).1, w') ∧ Abs w' (step k s (.setup i st)).2 ∧
      Consistent (step k s (.setup i st)).2 := by
  by_cases hr : s.inRange i = true
  · have hr' := (abs_inRange A i).2 hr
    have hin := inRange_iff.1 hr
    lift i to Nat using hin.1
    have hi : i < s.n := by omega
    have key : (isInactive st = true ∨ isActive st = true) → s.status i = ST_UNDEFINED := by
      intro hs
      have := h hr hs
      simpa using this
    unfold WSet.setup
    rw [if_neg (not_not.2 hr')]
    cases st
    case ST_INACTIVE =>
      have hu := key (Or.inl rfl)
      obtain ⟨w', e, A'⟩ := addIndex_inact A C hi (st := ST_INACTIVE) (by rw [hu]; rfl) (by rw [hu]; simp)
      refine ⟨w', ?_, ?_, ?_⟩
      · simp [e, step, hr, isInactive]
      · simpa [step, hr, isInactive] using A'
      · simpa [step, hr, isInactive] using consistent_setup_free C hi hu
    case ST_LOWER =>
      have hu := key (Or.inr rfl)
      obtain ⟨w', e, A'⟩ := addIndex_act A C hi (st := ST_LOWER) (by rw [hu]; rfl) (by rw [hu]; simp)
      refine ⟨w', ?_, ?_, ?_⟩
      · simp [e, step, hr, isInactive, isActive]
      · simpa [step, hr, isInactive, isActive] using A'
      · simpa [step, hr, isInactive, isActive] using consistent_setup_fixed C hi (st := ST_LOWER) rfl hu
    case ST_UPPER =>
      have hu := key (Or.inr rfl)
      obtain ⟨w', e, A'⟩ := addIndex_act A C hi (st := ST_UPPER) (by rw [hu]; rfl) (by rw [hu]; simp)
      refine ⟨w', ?_, ?_, ?_⟩
      · simp [e, step, hr, isInactive, isActive]
      · simpa [step, hr, isInactive, isActive] using A'
      · simpa [step, hr, isInactive, isActive] using consistent_setup_fixed C hi (st := ST_UPPER) rfl hu
    all_goals
      exact ⟨w, by simp [step, hr, isInactive, isActive], by simpa [step, hr, isInactive, isActive] using A,
        by simpa [step, hr, isInactive, isActive] using C⟩
  · have hr' : ¬ w.inRange i := fun h => hr ((abs_inRange A i).1 h)
    refine ⟨w, ?_, ?_, ?_⟩
    · unfold WSet.setup; rw [if_pos hr']; simp [step, hr]
    · simpa [step, hr] using A
    · simpa [step, hr] using C

theorem moveToInact_refines (k : Kind) (A : Abs w s) (C : Consistent s) (i : Int)
    (h : Proper s (.moveToInact i)) :
    ∃ w', w.moveToInact i = .ok ((step k s (.moveToInact i)).1, w') ∧
      Abs w' (step k s (.moveToInact i)).2 ∧ Consistent (step k s (.moveToInact i)).2 := by
  by_cases hr : s.inRange i = true
  · have hr' := (abs_inRange A i).2 hr
    have hin := inRange_iff.1 hr
    have hact := h hr
    lift i to Nat using hin.1
    have hi : i < s.n := by omega
    simp only [Int.toNat_natCast] at hact
    obtain ⟨w1, e1, A1⟩ := removeIndex_act A C hi hact
    have C1 := consistent_drop_fixed C hi hact
    have hs1 : setAt s.status (i : Int) ST_UNDEFINED i = ST_UNDEFINED := setAt_self _ _ _
    obtain ⟨w2, e2, A2⟩ := addIndex_inact A1 C1 (i := i) hi (st := ST_INACTIVE) (by simp only [hs1]; rfl)
      (by simp only [hs1]; simp)
    have C2 := consistent_setup_free C1 (i := i) hi hs1
    refine ⟨w2, ?_, ?_, ?_⟩
    · unfold WSet.moveToInact
      rw [if_neg (not_not.2 hr')]
      simp [e1, e2, step, hr]
    · simpa [step, hr, setAt_setAt] using A2
    · simpa [step, hr, setAt_setAt] using C2
  · have hr' : ¬ w.inRange i := fun h => hr ((abs_inRange A i).1 h)
    refine ⟨w, ?_, ?_, ?_⟩
    · unfold WSet.moveToInact; rw [if_pos hr']; simp [step, hr]
    · simpa [step, hr] using A
    · simpa [step, hr] using C

theorem moveToAct_refines (k : Kind) (A : Abs w s) (C : Consistent s) (i : Int) (st : SubjectToStatus)
    (h : Proper s (.moveToAct i st)) :
    ∃ w', w.moveToAct i st = .ok ((step k s (.moveToAct i st)).1, w') ∧
      Abs w' (step k s (.moveToAct i st)).2 ∧ Consistent (step k s (.moveToAct i st)).2 := by
  by_cases hr : s.inRange i = true
  · have hr' := (abs_inRange A i).2 hr
    have hin := inRange_iff.1 hr
    obtain ⟨hact, hst⟩ := h hr
    lift i to Nat using hin.1
    have hi : i < s.n := by omega
    simp only [Int.toNat_natCast] at hact
    obtain ⟨w1, e1, A1⟩ := removeIndex_inact A C hi hact
    have C1 := consistent_drop_free C hi hact
    have hs1 : setAt s.status (i : Int) ST_UNDEFINED i = ST_UNDEFINED := setAt_self _ _ _
    obtain ⟨w2, e2, A2⟩ := addIndex_act A1 C1 (i := i) hi (st := st) (by simp only [hs1]; rfl)
      (by simp only [hs1]; rintro rfl; simp [isActive] at hst)
    have C2 := consistent_setup_fixed C1 (i := i) hi hst hs1
    refine ⟨w2, ?_, ?_, ?_⟩
    · unfold WSet.moveToAct
      rw [if_neg (not_not.2 hr')]
      simp [e1, e2, step, hr]
    · simpa [step, hr, setAt_setAt] using A2
    · simpa [step, hr, setAt_setAt] using C2
  · have hr' : ¬ w.inRange i := fun h => hr ((abs_inRange A i).1 h)
    refine ⟨w, ?_, ?_, ?_⟩
    · unfold WSet.moveToAct; rw [if_pos hr']; simp [step, hr]
    · simpa [step, hr] using A
    · simpa [step, hr] using C

theorem setType_refines (k : Kind) (A : Abs w s) (C : Consistent s) (i : Int) (t : SubjectToType) :
    ∃ w', w.setType i t = ((step k s (.setType i t)).1, w') ∧
      Abs w' (step k s (.setType i t)).2 ∧ Consistent (step k s (.setType i t)).2 := by
  by_cases hr : s.inRange i = true
  · have hin := inRange_iff.1 hr
    lift i to Nat using hin.1
    refine ⟨{ w with type := WSet.upd w.type i t }, ?_, ?_, ?_⟩
    · unfold WSet.setType
      rw [if_pos (by rw [A.n]; exact hin)]
      simp [step, hr]
    · simp only [step, hr, if_true]
      refine ⟨A.n, ?_, A.status, A.free, A.fixed, A.capf, A.capx⟩
      intro j hj
      simp only [setAt_eq_upd, WSet.upd]
      split
      · rfl
      · exact A.type j hj
    · simp only [step, hr, if_true]
      exact ⟨C.free_iff, C.fixed_iff, C.free_nodup, C.fixed_nodup⟩
  · have hr' : ¬ (0 ≤ i ∧ i < w.n) := fun h => hr ((abs_inRange A i).1 h)
    refine ⟨w, ?_, ?_, ?_⟩
    · unfold WSet.setType; rw [if_neg hr']; simp [step, hr]
    · simpa [step, hr] using A
    · simpa [step, hr] using C

theorem consistent_flip (C : Consistent s) {i : Nat} {st : SubjectToStatus}
    (h : isActive (s.status i) = true) (hst : isActive st = true) :
    Consistent { s with status := setAt s.status (i : Int) st } := by
  have hi1 : isInactive st = false := by rcases isActive_iff.1 hst with rfl | rfl <;> rfl
  have hi2 : isInactive (s.status i) = false := by
    rcases isActive_iff.1 h with h | h <;> rw [h] <;> rfl
  have ha : ∀ j, isActive (setAt s.status (i : Int) st j) = isActive (s.status j) := by
    intro j
    by_cases hj : j = i
    · subst hj; rw [setAt_self, hst, h]
    · rw [setAt_ne _ _ hj]
  have hb : ∀ j, isInactive (setAt s.status (i : Int) st j) = isInactive (s.status j) := by
    intro j
    by_cases hj : j = i
    · subst hj; rw [setAt_self, hi1, hi2]
    · rw [setAt_ne _ _ hj]
  refine ⟨?_, ?_, C.free_nodup, C.fixed_nodup⟩
  · intro x; simp only [hb]; exact C.free_iff x
  · intro x; simp only [ha]; exact C.fixed_iff x

theorem flip_refines (k : Kind) (A : Abs w s) (C : Consistent s) (i : Int) :
    ∃ w', w.flipFixed k i = ((step k s (.flip i)).1, w') ∧
      Abs w' (step k s (.flip i)).2 ∧ Consistent (step k s (.flip i)).2 := by
  by_cases hr : s.inRange i = true
  · have hr' := (abs_inRange A i).2 hr
    have hin := inRange_iff.1 hr
    lift i to Nat using hin.1
    have hi : i < s.n := by omega
    have hs := A.status i hi
    unfold WSet.flipFixed
    rw [if_neg (not_not.2 hr')]
    simp only [Int.toNat_natCast, hs]
    by_cases h1 : s.status i = ST_LOWER
    · refine ⟨{ w with status := WSet.upd w.status i ST_UPPER }, ?_, ?_, ?_⟩
      · simp [h1, step, hr]
      · simp only [step, hr, Int.toNat_natCast, h1, if_true]
        exact ⟨A.n, A.type, abs_status A _, A.free, A.fixed, A.capf, A.capx⟩
      · simp only [step, hr, Int.toNat_natCast, h1, if_true]
        exact consistent_flip C (by rw [h1]; rfl) rfl
    · by_cases h2 : s.status i = ST_UPPER
      · refine ⟨{ w with status := WSet.upd w.status i ST_LOWER }, ?_, ?_, ?_⟩
        · simp [h2, step, hr]
        · simp only [step, hr, Int.toNat_natCast, h2, if_true]
          exact ⟨A.n, A.type, abs_status A _, A.free, A.fixed, A.capf, A.capx⟩
        · simp only [step, hr, Int.toNat_natCast, h2, if_true]
          exact consistent_flip C (by rw [h2]; rfl) rfl
      · refine ⟨w, ?_, ?_, ?_⟩
        · simp only [step, hr, Int.toNat_natCast, h1, h2, if_false, if_true]
        · simpa [step, hr, h1, h2] using A
        · simpa [step, hr, h1, h2] using C
  · have hr' : ¬ w.inRange i := fun h => hr ((abs_inRange A i).1 h)
    refine ⟨w, ?_, ?_, ?_⟩
    · unfold WSet.flipFixed; rw [if_pos hr']; simp [step, hr]
    · simpa [step, hr] using A
    · simpa [step, hr] using C

theorem swapFn_invol (a b x : Int) : Indexlist.swapFn a b (Indexlist.swapFn a b x) = x := by
  unfold Indexlist.swapFn
  split
  · next h =>
      split
      · next h2 => rw [h, h2]
      · simp [h]
  · next h =>
      split
      · next h2 => simp [h2]
      · next h2 => simp [h, h2]

theorem swap_refines (k : Kind) (A : Abs w s) (C : Consistent s) (i j : Int)
    (h : Proper s (.swap i j)) :
    ∃ w', w.swapFree i j = .ok ((step k s (.swap i j)).1, w') ∧
      Abs w' (step k s (.swap i j)).2 ∧ Consistent (step k s (.swap i j)).2 := by
  by_cases hr : s.inRange i = true ∧ s.inRange j = true
  · obtain ⟨hri, hrj⟩ := hr
    have hri' := (abs_inRange A i).2 hri
    have hrj' := (abs_inRange A j).2 hrj
    have hini := inRange_iff.1 hri
    have hinj := inRange_iff.1 hrj
    lift i to Nat using hini.1
    lift j to Nat using hinj.1
    have hi : i < s.n := by omega
    have hj : j < s.n := by omega
    have hsi := A.status i hi
    have hsj := A.status j hj
    unfold WSet.swapFree
    rw [if_neg (by simp [hri', hrj'])]
    unfold WSet.swapIndex
    rw [if_neg (by have := A.n; omega)]
    simp only [Int.toNat_natCast, hsi, hsj]
    by_cases hd : s.status i ≠ s.status j
    · rw [if_pos hd]
      refine ⟨w, ?_, ?_, ?_⟩
      · simp [step, hri, hrj, hd]
      · simpa [step, hri, hrj, hd] using A
      · simpa [step, hri, hrj, hd] using C
    · rw [if_neg hd]
      have hin := h hri hrj (by simpa using hd)
      simp only [Int.toNat_natCast] at hin
      simp only [ne_eq, not_not] at hd
      by_cases hij : i = j
      · subst hij
        have hid : s.free.map (fun x => if x = (i : Int) then (i : Int) else if x = (i : Int) then (i : Int) else x) = s.free := by
          conv_rhs => rw [← List.map_id s.free]
          apply List.map_congr_left
          intro x _
          simp only [id]
          split
          · next h => exact h.symm
          · rfl
        rw [if_pos rfl]
        refine ⟨w, ?_, ?_, ?_⟩
        · simp [step, hri]
        · simp only [step, hri, Bool.and_self, if_true, ne_eq, not_true_eq_false, if_false, hid]; exact A
        · simp only [step, hri, Bool.and_self, if_true, ne_eq, not_true_eq_false, if_false, hid]; exact C
      · rw [if_neg hij]
        obtain ⟨p, R⟩ := A.free
        have hmi : (i : Int) ∈ s.free := (C.free_iff _).2 ⟨i, hi, rfl, hin⟩
        have hmj : (j : Int) ∈ s.free := (C.free_iff _).2 ⟨j, hj, rfl, by rw [← hd]; exact hin⟩
        obtain ⟨l', p', e, R', hc⟩ := Indexlist.swapNumbers_mem R hmi hmj
        refine ⟨{ w with inact := l' }, ?_, ?_, ?_⟩
        · simp [WSet.list, e, WSet.setList, step, hri, hrj, hd]
        · simp only [step, hri, hrj, Bool.and_self, if_true, Int.toNat_natCast, hd, ne_eq, not_true_eq_false, if_false]
          exact ⟨A.n, A.type, A.status, ⟨p', R'⟩, A.fixed, hc.trans A.capf, A.capx⟩
        · simp only [step, hri, hrj, Bool.and_self, if_true, Int.toNat_natCast, hd, ne_eq, not_true_eq_false, if_false]
          refine ⟨?_, C.fixed_iff, ?_, C.fixed_nodup⟩
          · intro x
            rw [← C.free_iff x]
            have : ∀ y, y ∈ s.free → Indexlist.swapFn i j y ∈ s.free := by
              intro y hy
              unfold Indexlist.swapFn
              split
              · exact hmj
              · split
                · exact hmi
                · exact hy
            constructor
            · intro hx
              obtain ⟨y, hy, rfl⟩ := List.mem_map.1 hx
              exact this y hy
            · intro hx
              exact List.mem_map.2 ⟨Indexlist.swapFn i j x, this x hx, swapFn_invol _ _ _⟩
          · exact C.free_nodup.map (fun a b hab => by
              have hab' : Indexlist.swapFn i j a = Indexlist.swapFn i j b := hab
              have := congrArg (Indexlist.swapFn i j) hab'
              rwa [swapFn_invol, swapFn_invol] at this)
  · have hr' : ¬ w.inRange i ∨ ¬ w.inRange j := by
      by_contra hc
      simp only [not_or, not_not] at hc
      exact hr ⟨(abs_inRange A i).1 hc.1, (abs_inRange A j).1 hc.2⟩
    have hb : (s.inRange i && s.inRange j) = false := by
      rw [Bool.and_eq_false_iff]
      by_cases h1 : s.inRange i = true
      · right; simpa using fun h2 => hr ⟨h1, h2⟩
      · left; simpa using h1
    refine ⟨w, ?_, ?_, ?_⟩
    · unfold WSet.swapFree; rw [if_pos hr']; simp [step, hb]
    · simpa [step, hb] using A
    · simpa [step, hb] using C

/-! ### setupAll -/

/-- indices `lo, …, lo+cnt-1` satisfying `p` -/
def selFrom (p : Nat → Bool) (lo cnt : Nat) : List Int :=
  ((List.range' lo cnt).filter p).map (fun i : Nat => (i : Int))

theorem selFrom_zero (p : Nat → Bool) (lo : Nat) : selFrom p lo 0 = [] := rfl

theorem selFrom_succ (p : Nat → Bool) (lo cnt : Nat) :
    selFrom p lo (cnt+1) = (if p lo then [(lo : Int)] else []) ++ selFrom p (lo+1) cnt := by
  simp only [selFrom, List.range'_succ, List.filter_cons]
  split <;> simp

theorem selFrom_eq_select (p : Nat → Bool) (n : Nat) : selFrom p 0 n = select n p := by
  simp [selFrom, select, List.range_eq_range']

theorem consistent_congr {s s' : WorkingSet} (C : Consistent s) (hn : s'.n = s.n)
    (hs : ∀ i, i < s.n → s'.status i = s.status i) (hf : s'.free = s.free) (hx : s'.fixed = s.fixed) :
    Consistent s' where
  free_iff x := by
    rw [hf, C.free_iff, hn]
    constructor
    · rintro ⟨i, hi, rfl, h⟩; exact ⟨i, hi, rfl, by rw [hs i hi]; exact h⟩
    · rintro ⟨i, hi, rfl, h⟩; exact ⟨i, hi, rfl, by rw [← hs i hi]; exact h⟩
  fixed_iff x := by
    rw [hx, C.fixed_iff, hn]
    constructor
    · rintro ⟨i, hi, rfl, h⟩; exact ⟨i, hi, rfl, by rw [hs i hi]; exact h⟩
    · rintro ⟨i, hi, rfl, h⟩; exact ⟨i, hi, rfl, by rw [← hs i hi]; exact h⟩
  free_nodup := hf ▸ C.free_nodup
  fixed_nodup := hx ▸ C.fixed_nodup

theorem abs_congr {s s' : WorkingSet} (A : Abs w s) (hn : s'.n = s.n)
    (ht : ∀ i, i < s.n → s'.type i = s.type i)
    (hs : ∀ i, i < s.n → s'.status i = s.status i) (hf : s'.free = s.free) (hx : s'.fixed = s.fixed) :
    Abs w s' where
  n := A.n.trans hn.symm
  type i hi := by rw [hn] at hi; rw [A.type i hi, ht i hi]
  status i hi := by rw [hn] at hi; rw [A.status i hi, hs i hi]
  free := by rw [hf]; exact A.free
  fixed := by rw [hx]; exact A.fixed
  capf := A.capf.trans hn.symm
  capx := A.capx.trans hn.symm

/-- effect of one pass -/
def passed (st : SubjectToStatus) (sel : SubjectToType → Bool) (s : WorkingSet) (lo cnt : Nat) : WorkingSet :=
  { s with
    status := fun i => if lo ≤ i ∧ i < lo + cnt ∧ sel (s.type i) = true then st else s.status i
    free := if isInactive st then s.free ++ selFrom (fun i => sel (s.type i)) lo cnt else s.free
    fixed := if isInactive st then s.fixed else s.fixed ++ selFrom (fun i => sel (s.type i)) lo cnt }

theorem setupPass_refines (k : Kind) {st : SubjectToStatus} (hst : isInactive st = true ∨ isActive st = true)
    (sel : SubjectToType → Bool) : ∀ (cnt lo : Nat) {w : WSet} {s : WorkingSet}, Abs w s → Consistent s →
    lo + cnt ≤ s.n → (∀ i, lo ≤ i → i < lo + cnt → sel (s.type i) = true → s.status i = ST_UNDEFINED) →
    ∃ w', w.setupPass k st sel lo cnt = .ok (true, w') ∧ Abs w' (passed st sel s lo cnt) ∧
      Consistent (passed st sel s lo cnt) := by
  intro cnt
  induction cnt with
  | zero =>
    intro lo w s A C _ _
    have h1 : passed st sel s lo 0 = s := by
      have : ∀ i, ¬ (lo ≤ i ∧ i < lo + 0 ∧ sel (s.type i) = true) := by intro i h; omega
      simp only [passed, selFrom_zero, List.append_nil, ite_self, this, if_false]
    exact ⟨w, rfl, by rw [h1]; exact A, by rw [h1]; exact C⟩
  | succ cnt ih =>
    intro lo w s A C hle hu
    have hlo : lo < s.n := by omega
    have hty : w.getType (lo : Int) = s.type lo := by
      unfold WSet.getType
      rw [if_pos (by rw [A.n]; omega)]
      simpa using A.type lo hlo
    have hrng : s.inRange (lo : Int) = true := inRange_iff.2 (by omega)
    by_cases hsel : sel (s.type lo) = true
    · obtain ⟨w1, e1, A1, C1⟩ := setup_refines k A C lo st (by
        intro _ _; simpa using hu lo (by omega) (by omega) hsel)
      have hret : (step k s (.setup lo st)).1 = SUCCESSFUL_RETURN := by
        simp only [step, hrng, if_true]
        rcases hst with h | h
        · simp [h]
        · split
          · rfl
          · simp [h]
      have hs1 : (step k s (.setup lo st)).2 =
          { s with status := setAt s.status (lo : Int) st, free := if isInactive st then s.free ++ [(lo : Int)] else s.free, fixed := if isInactive st then s.fixed else s.fixed ++ [(lo : Int)] } := by
        simp only [step, hrng, if_true]
        by_cases hin : isInactive st = true
        · simp [hin]
        · have hac : isActive st = true := by rcases hst with h | h; exact absurd h hin; exact h
          simp [hin, hac]
      rw [hs1] at A1 C1
      obtain ⟨w2, e2, A2, C2⟩ := ih (lo+1) A1 C1 (by simp; omega) (by
        intro i h1 h2 h3
        simp only at h3 ⊢
        rw [setAt_ne _ _ (by omega)]
        exact hu i (by omega) (by omega) h3)
      have heq : passed st sel { s with status := setAt s.status (lo : Int) st, free := if isInactive st then s.free ++ [(lo : Int)] else s.free, fixed := if isInactive st then s.fixed else s.fixed ++ [(lo : Int)] } (lo+1) cnt =
          passed st sel s lo (cnt+1) := by
        have hstat : (fun i => if lo + 1 ≤ i ∧ i < lo + 1 + cnt ∧ sel (s.type i) = true then st
              else setAt s.status (lo : Int) st i) =
            (fun i => if lo ≤ i ∧ i < lo + (cnt + 1) ∧ sel (s.type i) = true then st else s.status i) := by
          funext i
          by_cases hi : i = lo
          · subst hi
            rw [if_neg (by omega), setAt_self, if_pos ⟨by omega, by omega, hsel⟩]
          · rw [setAt_ne _ _ hi]
            by_cases hc : lo + 1 ≤ i ∧ i < lo + 1 + cnt ∧ sel (s.type i) = true
            · rw [if_pos hc, if_pos ⟨by omega, by omega, hc.2.2⟩]
            · rw [if_neg hc, if_neg (by intro hd; exact hc ⟨by omega, by omega, hd.2.2⟩)]
        simp only [passed, hstat, selFrom_succ, hsel, if_true]
        by_cases hin : isInactive st = true <;> simp [hin]
      rw [heq] at A2 C2
      refine ⟨w2, ?_, A2, C2⟩
      rw [WSet.setupPass, hty, if_pos hsel, e1, hret]
      simp [e2]
    · obtain ⟨w2, e2, A2, C2⟩ := ih (lo+1) A C (by omega) (by
        intro i h1 h2 h3; exact hu i (by omega) (by omega) h3)
      have heq : passed st sel s (lo+1) cnt = passed st sel s lo (cnt+1) := by
        have hstat : (fun i => if lo + 1 ≤ i ∧ i < lo + 1 + cnt ∧ sel (s.type i) = true then st
              else s.status i) =
            (fun i => if lo ≤ i ∧ i < lo + (cnt + 1) ∧ sel (s.type i) = true then st else s.status i) := by
          funext i
          by_cases hi : i = lo
          · subst hi
            rw [if_neg (by omega), if_neg (fun h => hsel h.2.2)]
          · by_cases hc : lo + 1 ≤ i ∧ i < lo + 1 + cnt ∧ sel (s.type i) = true
            · rw [if_pos hc, if_pos ⟨by omega, by omega, hc.2.2⟩]
            · rw [if_neg hc, if_neg (by intro hd; exact hc ⟨by omega, by omega, hd.2.2⟩)]
        simp [passed, hstat, selFrom_succ, hsel]
      rw [heq] at A2 C2
      refine ⟨w2, ?_, A2, C2⟩
      rw [WSet.setupPass, hty, if_neg hsel, e2]

theorem setupAll_refines (k : Kind) (A : Abs w s) (C : Consistent s) (st : SubjectToStatus)
    (hfree : s.free = []) (hfixed : s.fixed = [])
    (h : Proper s (.setupAll st)) :
    ∃ w', w.setupAll k st = .ok ((step k s (.setupAll st)).1, w') ∧
      Abs w' (step k s (.setupAll st)).2 ∧ Consistent (step k s (.setupAll st)).2 := by
  obtain ⟨hb, hst⟩ := h
  obtain ⟨w1, e1, A1, C1⟩ := setupPass_refines k hst (fun t => t == ST_UNBOUNDED) s.n 0 A C (by omega)
    (by intro i _ hi _; exact hb i (by omega))
  obtain ⟨w2, e2, A2, C2⟩ := setupPass_refines k hst (fun t => t == ST_BOUNDED) s.n 0 A1 C1
    (by simp [passed]) (by
      intro i _ hi ht
      simp only [passed] at ht ⊢
      rw [if_neg (by rintro ⟨_, _, h⟩; simp at h ht; rw [h] at ht; simp at ht)]
      exact hb i (by omega))
  obtain ⟨w3, e3, A3, C3⟩ := setupPass_refines k hst (fun t => t == ST_EQUALITY) s.n 0 A2 C2
    (by simp [passed]) (by
      intro i _ hi ht
      simp only [passed] at ht ⊢
      rw [if_neg (by rintro ⟨_, _, h⟩; simp at h ht; rw [h] at ht; simp at ht)]
      rw [if_neg (by rintro ⟨_, _, h⟩; simp at h ht; rw [h] at ht; simp at ht)]
      exact hb i (by omega))
  obtain ⟨w4, e4, A4, C4⟩ := setupPass_refines k hst (fun t => t == ST_UNKNOWN || t == ST_DISABLED) s.n 0 A3 C3
    (by simp [passed]) (by
      intro i _ hi ht
      simp only [passed] at ht ⊢
      rw [if_neg (by rintro ⟨_, _, h⟩; simp at h ht; rw [h] at ht; simp at ht)]
      rw [if_neg (by rintro ⟨_, _, h⟩; simp at h ht; rw [h] at ht; simp at ht)]
      rw [if_neg (by rintro ⟨_, _, h⟩; simp at h ht; rw [h] at ht; simp at ht)]
      exact hb i (by omega))
  have hret : (step k s (.setupAll st)).1 = SUCCESSFUL_RETURN := by
    simp only [step]; split <;> rfl
  have n1 : w1.n = s.n := A1.n
  have n2 : w2.n = s.n := A2.n
  have n3 : w3.n = s.n := A3.n
  have hstat : ∀ i, i < s.n → st = (passed st (fun t => t == ST_UNKNOWN || t == ST_DISABLED)
      (passed st (fun t => t == ST_EQUALITY) (passed st (fun t => t == ST_BOUNDED)
        (passed st (fun t => t == ST_UNBOUNDED) s 0 s.n) 0 s.n) 0 s.n) 0 s.n).status i := by
    intro i hi
    simp only [passed]
    cases ht : s.type i <;> simp [hi]
  have hlists : (passed st (fun t => t == ST_UNKNOWN || t == ST_DISABLED)
      (passed st (fun t => t == ST_EQUALITY) (passed st (fun t => t == ST_BOUNDED)
        (passed st (fun t => t == ST_UNBOUNDED) s 0 s.n) 0 s.n) 0 s.n) 0 s.n).free =
        (step k s (.setupAll st)).2.free ∧
      (passed st (fun t => t == ST_UNKNOWN || t == ST_DISABLED)
      (passed st (fun t => t == ST_EQUALITY) (passed st (fun t => t == ST_BOUNDED)
        (passed st (fun t => t == ST_UNBOUNDED) s 0 s.n) 0 s.n) 0 s.n) 0 s.n).fixed =
        (step k s (.setupAll st)).2.fixed := by
    by_cases hin : isInactive st = true
    · simp [passed, step, hin, hfree, hfixed, setupOrder, selFrom_eq_select]
    · simp [passed, step, hin, hfree, hfixed, setupOrder, selFrom_eq_select]
  refine ⟨w4, ?_, ?_, ?_⟩
  · unfold WSet.setupAll
    rw [A.n, e1]
    simp only [Res.bind_ok, Bool.not_true, Bool.false_eq_true, if_false]
    rw [n1, e2]
    simp only [Res.bind_ok, Bool.not_true, Bool.false_eq_true, if_false]
    rw [n2, e3]
    simp only [Res.bind_ok, Bool.not_true, Bool.false_eq_true, if_false]
    rw [n3, e4, hret]
    simp
  · have hstep : (step k s (.setupAll st)).2.n = s.n ∧ (step k s (.setupAll st)).2.type = s.type ∧
        (step k s (.setupAll st)).2.status = fun _ => st := by
      simp only [step]; split <;> exact ⟨rfl, rfl, rfl⟩
    refine abs_congr A4 hstep.1 ?_ ?_ hlists.1.symm hlists.2.symm
    · intro i _; rw [hstep.2.1]; rfl
    · intro i hi; rw [hstep.2.2]; exact hstat i hi
  · have hstep : (step k s (.setupAll st)).2.n = s.n ∧ (step k s (.setupAll st)).2.type = s.type ∧
        (step k s (.setupAll st)).2.status = fun _ => st := by
      simp only [step]; split <;> exact ⟨rfl, rfl, rfl⟩
    refine consistent_congr C4 hstep.1 ?_ hlists.1.symm hlists.2.symm
    intro i hi; rw [hstep.2.2]; exact hstat i hi

theorem blank_lists (C : Consistent s) (hb : s.Blank) : s.free = [] ∧ s.fixed = [] := by
  constructor
  · rw [List.eq_nil_iff_forall_not_mem]
    intro x hx
    obtain ⟨i, hi, _, h⟩ := (C.free_iff x).1 hx
    rw [hb i hi] at h; simp [isInactive] at h
  · rw [List.eq_nil_iff_forall_not_mem]
    intro x hx
    obtain ⟨i, hi, _, h⟩ := (C.fixed_iff x).1 hx
    rw [hb i hi] at h; simp [isActive] at h

/-! ### shift and rotate -/

theorem rebuild_spec (status : Nat → SubjectToStatus) (n : Nat) : ∀ (cnt lo : Nat) (fr fx : Indexlist)
    (lf lx : List Int) (pf px : Nat → Nat), Rep fr lf pf → Rep fx lx px →
    fr.physicallength = n → fx.physicallength = n → lo + cnt = n →
    (∀ x ∈ lf, ∃ i : Nat, i < lo ∧ x = i) → (∀ x ∈ lx, ∃ i : Nat, i < lo ∧ x = i) →
    (∀ i, lo ≤ i → i < n → isInactive (status i) = true ∨ isActive (status i) = true) →
    ∃ fr' fx' pf' px', WSet.rebuild status lo cnt fr fx = .ok (some (fr', fx')) ∧
      Rep fr' (lf ++ selFrom (fun i => isInactive (status i)) lo cnt) pf' ∧
      Rep fx' (lx ++ selFrom (fun i => isActive (status i)) lo cnt) px' ∧
      fr'.physicallength = n ∧ fx'.physicallength = n := by
  intro cnt
  induction cnt with
  | zero =>
    intro lo fr fx lf lx pf px Rf Rx hf hx hn _ _ _
    exact ⟨fr, fx, pf, px, rfl, by simpa [selFrom_zero] using Rf, by simpa [selFrom_zero] using Rx, hf, hx⟩
  | succ cnt ih =>
    intro lo fr fx lf lx pf px Rf Rx hf hx hn hlf hlx hc
    have notin : ∀ l : List Int, (∀ x ∈ l, ∃ i : Nat, i < lo ∧ x = i) → (lo : Int) ∉ l := by
      intro l hl hm
      obtain ⟨i, hi, he⟩ := hl _ hm
      omega
    have lt : ∀ l : List Int, l.Nodup → (∀ x ∈ l, ∃ i : Nat, i < lo ∧ x = i) → l.length < n := by
      intro l hnd hl
      have := length_le_of_range hnd hl
      omega
    have ext : ∀ l : List Int, (∀ x ∈ l, ∃ i : Nat, i < lo ∧ x = i) →
        ∀ x ∈ l ++ [(lo : Int)], ∃ i : Nat, i < lo + 1 ∧ x = i := by
      intro l hl x hx
      rcases List.mem_append.1 hx with h | h
      · obtain ⟨i, hi, he⟩ := hl x h; exact ⟨i, by omega, he⟩
      · simp at h; exact ⟨lo, by omega, h⟩
    have wk : ∀ l : List Int, (∀ x ∈ l, ∃ i : Nat, i < lo ∧ x = i) →
        ∀ x ∈ l, ∃ i : Nat, i < lo + 1 ∧ x = i := by
      intro l hl x hx
      obtain ⟨i, hi, he⟩ := hl x hx; exact ⟨i, by omega, he⟩
    have hc' : ∀ i, lo + 1 ≤ i → i < n → isInactive (status i) = true ∨ isActive (status i) = true :=
      fun i h1 h2 => hc i (by omega) h2
    rcases hc lo (by omega) (by omega) with hs | hs
    · have hs' := isInactive_iff.1 hs
      obtain ⟨fr1, p1, e1, R1, hp1⟩ := Indexlist.addNumber_spec Rf (notin lf hlf)
        (by rw [hf]; exact lt lf Rf.nodup hlf)
      obtain ⟨fr', fx', pf', px', e, Rf', Rx', hf', hx'⟩ := ih (lo+1) fr1 fx (lf ++ [(lo : Int)]) lx p1 px R1 Rx
        (hp1.trans hf) hx (by omega) (ext lf hlf) (wk lx hlx) hc'
      refine ⟨fr', fx', pf', px', ?_, ?_, ?_, hf', hx'⟩
      · rw [WSet.rebuild, hs']
        simp [e1, e]
      · simpa [selFrom_succ, hs] using Rf'
      · simpa [selFrom_succ, hs', isActive] using Rx'
    · obtain ⟨fx1, p1, e1, R1, hp1⟩ := Indexlist.addNumber_spec Rx (notin lx hlx)
        (by rw [hx]; exact lt lx Rx.nodup hlx)
      obtain ⟨fr', fx', pf', px', e, Rf', Rx', hf', hx'⟩ := ih (lo+1) fr fx1 lf (lx ++ [(lo : Int)]) pf p1 Rf R1
        hf (hp1.trans hx) (by omega) (wk lf hlf) (ext lx hlx) hc'
      refine ⟨fr', fx', pf', px', ?_, ?_, ?_, hf', hx'⟩
      · rcases isActive_iff.1 hs with hs' | hs'
        · rw [WSet.rebuild, hs']; simp [e1, e]
        · rw [WSet.rebuild, hs']; simp [e1, e]
      · rcases isActive_iff.1 hs with hs' | hs' <;> simpa [selFrom_succ, hs', isInactive] using Rf'
      · rcases isActive_iff.1 hs with hs' | hs' <;> simpa [selFrom_succ, hs', isActive] using Rx'

/-- result of the in-place downward shift -/
theorem shiftDown_spec (o : Nat) (ho : 0 < o) : ∀ (cnt lo : Nat) (w : WSet), lo + cnt + o ≤ w.n →
    (WSet.shiftDown o lo cnt w).n = w.n ∧
    (WSet.shiftDown o lo cnt w).inact = w.inact ∧ (WSet.shiftDown o lo cnt w).act = w.act ∧
    (∀ i, (WSet.shiftDown o lo cnt w).type i =
      if lo ≤ i ∧ i < lo + cnt then w.type (i + o) else w.type i) ∧
    (∀ i, (WSet.shiftDown o lo cnt w).status i =
      if lo ≤ i ∧ i < lo + cnt then w.status (i + o) else w.status i) := by
  intro cnt
  induction cnt with
  | zero =>
    intro lo w _
    refine ⟨rfl, rfl, rfl, ?_, ?_⟩ <;> intro i <;> rw [if_neg (by omega)] <;> rfl
  | succ cnt ih =>
    intro lo w hle
    have h1 : w.setType lo (w.getType (lo + o)) =
        (SUCCESSFUL_RETURN, { w with type := WSet.upd w.type lo (w.type (lo + o)) }) := by
      unfold WSet.setType WSet.getType
      rw [if_pos (by omega), if_pos (by omega)]
      congr
    have h2 : ∀ w1 : WSet, w1.n = w.n → w1.setStatus lo (w1.getStatus (lo + o)) =
        (SUCCESSFUL_RETURN, { w1 with status := WSet.upd w1.status lo (w1.status (lo + o)) }) := by
      intro w1 hw1
      unfold WSet.setStatus WSet.getStatus
      rw [if_pos (by omega), if_pos (by omega)]
      congr
    have hstep : WSet.shiftDown o lo (cnt+1) w = WSet.shiftDown o (lo+1) cnt
        { w with type := WSet.upd w.type lo (w.type (lo + o)), status := WSet.upd w.status lo (w.status (lo + o)) } := by
      rw [WSet.shiftDown, h1]
      simp only
      rw [h2 { w with type := WSet.upd w.type lo (w.type (lo + o)) } rfl]
    rw [hstep]
    obtain ⟨a1, a2, a3, a4, a5⟩ := ih (lo+1) { w with type := WSet.upd w.type lo (w.type (lo + o)), status := WSet.upd w.status lo (w.status (lo + o)) } (by simp; omega)
    refine ⟨a1, a2, a3, ?_, ?_⟩
    · intro i
      rw [a4]
      simp only [WSet.upd]
      by_cases hi : i = lo
      · rw [if_neg (by omega), if_pos hi, if_pos (by omega), hi]
      · rw [if_neg hi]
        by_cases hc : lo + 1 ≤ i ∧ i < lo + 1 + cnt
        · rw [if_pos hc, if_neg (by omega), if_pos (by omega)]
        · rw [if_neg hc, if_neg (by omega)]
    · intro i
      rw [a5]
      simp only [WSet.upd]
      by_cases hi : i = lo
      · rw [if_neg (by omega), if_pos hi, if_pos (by omega), hi]
      · rw [if_neg hi]
        by_cases hc : lo + 1 ≤ i ∧ i < lo + 1 + cnt
        · rw [if_pos hc, if_neg (by omega), if_pos (by omega)]
        · rw [if_neg hc, if_neg (by omega)]

theorem restoreTmp_spec (o : Nat) (tt : Nat → SubjectToType) (ts : Nat → SubjectToStatus) :
    ∀ (cnt lo : Nat) (w : WSet), lo + cnt ≤ w.n → w.n ≤ lo + o →
    (WSet.restoreTmp o tt ts lo cnt w).n = w.n ∧
    (WSet.restoreTmp o tt ts lo cnt w).inact = w.inact ∧ (WSet.restoreTmp o tt ts lo cnt w).act = w.act ∧
    (∀ i, (WSet.restoreTmp o tt ts lo cnt w).type i =
      if lo ≤ i ∧ i < lo + cnt then tt (i + o - w.n) else w.type i) ∧
    (∀ i, (WSet.restoreTmp o tt ts lo cnt w).status i =
      if lo ≤ i ∧ i < lo + cnt then ts (i + o - w.n) else w.status i) := by
  intro cnt
  induction cnt with
  | zero =>
    intro lo w _ _
    refine ⟨rfl, rfl, rfl, ?_, ?_⟩ <;> intro i <;> rw [if_neg (by omega)] <;> rfl
  | succ cnt ih =>
    intro lo w hle hge
    have hidx : ((lo : Int) - w.n + o).toNat = lo + o - w.n := by omega
    have hstep : WSet.restoreTmp o tt ts lo (cnt+1) w = WSet.restoreTmp o tt ts (lo+1) cnt
        { w with type := WSet.upd w.type lo (tt (lo + o - w.n)), status := WSet.upd w.status lo (ts (lo + o - w.n)) } := by
      rw [WSet.restoreTmp]
      unfold WSet.setType WSet.setStatus
      have hb : (0 : Int) ≤ (lo : Int) ∧ (lo : Int) < (w.n : Int) := by omega
      simp only [hb, and_self, if_true, hidx, Int.toNat_natCast]
    rw [hstep]
    obtain ⟨a1, a2, a3, a4, a5⟩ := ih (lo+1) { w with type := WSet.upd w.type lo (tt (lo + o - w.n)), status := WSet.upd w.status lo (ts (lo + o - w.n)) } (by simp; omega) (by simp; omega)
    refine ⟨a1, a2, a3, ?_, ?_⟩
    · intro i
      rw [a4]
      simp only [WSet.upd]
      by_cases hi : i = lo
      · rw [if_neg (by omega), if_pos hi, if_pos (by omega), hi]
      · rw [if_neg hi]
        by_cases hc : lo + 1 ≤ i ∧ i < lo + 1 + cnt
        · rw [if_pos hc, if_pos (by omega)]
        · rw [if_neg hc, if_neg (by omega)]
    · intro i
      rw [a5]
      simp only [WSet.upd]
      by_cases hi : i = lo
      · rw [if_neg (by omega), if_pos hi, if_pos (by omega), hi]
      · rw [if_neg hi]
        by_cases hc : lo + 1 ≤ i ∧ i < lo + 1 + cnt
        · rw [if_pos hc, if_pos (by omega)]
        · rw [if_neg hc, if_neg (by omega)]

theorem select_congr {n : Nat} {p q : Nat → Bool} (h : ∀ i, i < n → p i = q i) : select n p = select n q := by
  unfold select
  congr 1
  apply List.filter_congr
  intro i hi
  exact h i (List.mem_range.1 hi)

/-- Rebuilding the lists of an object whose statuses agree with `s'` yields `relist s'`. -/
theorem rebuild_refines {w1 : WSet} {s' : WorkingSet} (hn : w1.n = s'.n)
    (ht : ∀ i, i < s'.n → w1.type i = s'.type i) (hs : ∀ i, i < s'.n → w1.status i = s'.status i)
    (hc : s'.Complete) :
    ∃ fr fx, WSet.rebuild (fun i => w1.getStatus i) 0 w1.n (Indexlist.empty.init w1.n).2
        (Indexlist.empty.init w1.n).2 = .ok (some (fr, fx)) ∧
      Abs { w1 with inact := fr, act := fx } (relist s') := by
  have hgs : ∀ i, i < s'.n → w1.getStatus (i : Int) = s'.status i := by
    intro i hi
    unfold WSet.getStatus
    rw [if_pos (by omega)]
    simpa using hs i hi
  obtain ⟨_, R, hp⟩ := Indexlist.init_rep Indexlist.empty (n := (w1.n : Int)) (by omega)
  have hp' : (Indexlist.empty.init w1.n).2.physicallength = w1.n := by simpa using hp
  obtain ⟨fr, fx, pf, px, e, Rf, Rx, hf, hx⟩ := rebuild_spec (fun i => w1.getStatus i) w1.n w1.n 0 _ _ [] [] id id
    R R hp' hp' (by omega) (by simp) (by simp) (by
      intro i _ hi
      rw [hn] at hi
      simp only [hgs i hi]
      exact hc i hi)
  refine ⟨fr, fx, e, ?_⟩
  refine ⟨hn, ht, hs, ⟨pf, ?_⟩, ⟨px, ?_⟩, hf.trans hn, hx.trans hn⟩
  · simp only [List.nil_append, selFrom_eq_select] at Rf
    rw [hn, select_congr (q := fun i => isInactive (s'.status i)) (by
      intro i hi; simp only [hgs i hi])] at Rf
    exact Rf
  · simp only [List.nil_append, selFrom_eq_select] at Rx
    rw [hn, select_congr (q := fun i => isActive (s'.status i)) (by
      intro i hi; simp only [hgs i hi])] at Rx
    exact Rx

theorem shift_refines (k : Kind) (A : Abs w s) (C : Consistent s) (o : Int)
    (h : Proper s (.shift o)) :
    ∃ w', w.shift o = .ok ((step k s (.shift o)).1, w') ∧
      Abs w' (step k s (.shift o)).2 ∧ Consistent (step k s (.shift o)).2 := by
  have hn := A.n
  unfold WSet.shift
  rw [hn]
  by_cases h1 : o = 0 ∨ s.n ≤ 1
  · rw [if_pos h1]
    exact ⟨w, by simp [step, h1], by simpa [step, h1] using A, by simpa [step, h1] using C⟩
  · rw [if_neg h1]
    by_cases h2 : o < 0 ∨ o > (s.n / 2 : Nat)
    · have h2' : o < 0 ∨ 2 * o > (s.n : Int) := by omega
      rw [if_pos h2]
      exact ⟨w, by simp [step, h1, h2'], by simpa [step, h1, h2'] using A, by simpa [step, h1, h2'] using C⟩
    · have h2' : ¬ (o < 0 ∨ 2 * o > (s.n : Int)) := by omega
      rw [if_neg h2]
      by_cases h3 : (s.n : Int) % o ≠ 0
      · have h3' : ¬ o ∣ (s.n : Int) := fun hd => h3 (Int.emod_eq_zero_of_dvd hd)
        rw [if_pos h3]
        exact ⟨w, by simp [step, h1, h2', h3'], by simpa [step, h1, h2', h3'] using A,
          by simpa [step, h1, h2', h3'] using C⟩
      · have h3' : o ∣ (s.n : Int) := Int.dvd_of_emod_eq_zero (not_not.1 h3)
        rw [if_neg h3]
        obtain ⟨a1, a2, a3, a4, a5⟩ := shiftDown_spec o.toNat (by omega) (w.n - o.toNat) 0 w (by omega)
        rw [hn] at a1 a2 a3 a4 a5
        obtain ⟨fr, fx, e, A'⟩ := rebuild_refines (w1 := WSet.shiftDown o.toNat 0 (s.n - o.toNat) w)
          (s' := { s with
            type := fun i => if i + o.toNat < s.n then s.type (i + o.toNat) else s.type i, status := fun i => if i + o.toNat < s.n then s.status (i + o.toNat) else s.status i })
          a1 (by
            intro i hi
            simp only at hi ⊢
            rw [a4]
            by_cases hc : i + o.toNat < s.n
            · rw [if_pos hc, if_pos (by omega), A.type _ hc]
            · rw [if_neg hc, if_neg (by omega), A.type _ hi]) (by
            intro i hi
            simp only at hi ⊢
            rw [a5]
            by_cases hc : i + o.toNat < s.n
            · rw [if_pos hc, if_pos (by omega), A.status _ hc]
            · rw [if_neg hc, if_neg (by omega), A.status _ hi]) (by
            intro i hi
            simp only at hi ⊢
            by_cases hc : i + o.toNat < s.n
            · rw [if_pos hc]; exact h _ hc
            · rw [if_neg hc]; exact h _ hi)
        refine ⟨{ WSet.shiftDown o.toNat 0 (s.n - o.toNat) w with inact := fr, act := fx }, ?_, ?_, ?_⟩
        · simp only [e, Res.bind_ok, step, h1, h2', h3', if_false, not_true_eq_false]
        · simp only [step, h1, h2', h3', if_false, not_true_eq_false]
          exact A'
        · simp only [step, h1, h2', h3', if_false, not_true_eq_false]
          exact consistent_relist _

theorem rotate_refines (k : Kind) (A : Abs w s) (C : Consistent s) (o : Int)
    (h : Proper s (.rotate o)) :
    ∃ w', w.rotate o = .ok ((step k s (.rotate o)).1, w') ∧
      Abs w' (step k s (.rotate o)).2 ∧ Consistent (step k s (.rotate o)).2 := by
  have hn := A.n
  unfold WSet.rotate
  rw [hn]
  by_cases h1 : o = 0 ∨ o = s.n ∨ s.n ≤ 1
  · rw [if_pos h1]
    exact ⟨w, by simp [step, h1], by simpa [step, h1] using A, by simpa [step, h1] using C⟩
  · rw [if_neg h1]
    by_cases h2 : o < 0 ∨ o > s.n
    · rw [if_pos h2]
      exact ⟨w, by simp [step, h1, h2], by simpa [step, h1, h2] using A, by simpa [step, h1, h2] using C⟩
    · rw [if_neg h2]
      obtain ⟨a1, a2, a3, a4, a5⟩ := shiftDown_spec o.toNat (by omega) (w.n - o.toNat) 0 w (by omega)
      rw [hn] at a1 a2 a3 a4 a5
      obtain ⟨b1, b2, b3, b4, b5⟩ := restoreTmp_spec o.toNat (fun i : Nat => w.getType i)
        (fun i : Nat => w.getStatus i) o.toNat (s.n - o.toNat)
        (WSet.shiftDown o.toNat 0 (s.n - o.toNat) w) (by rw [a1]; omega) (by rw [a1]; omega)
      rw [a1] at b1 b4 b5
      have hmod : ∀ i, i < s.n → (i + o.toNat) % s.n =
          if i < s.n - o.toNat then i + o.toNat else i + o.toNat - s.n := by
        intro i hi
        split
        · exact Nat.mod_eq_of_lt (by omega)
        · rw [Nat.mod_eq_sub_mod (by omega), Nat.mod_eq_of_lt (by omega)]
      have hgt : ∀ i, i < s.n → w.getType (i : Int) = s.type i := by
        intro i hi
        unfold WSet.getType
        rw [if_pos (by omega)]; simpa using A.type i hi
      have hgs : ∀ i, i < s.n → w.getStatus (i : Int) = s.status i := by
        intro i hi
        unfold WSet.getStatus
        rw [if_pos (by omega)]; simpa using A.status i hi
      obtain ⟨fr, fx, e, A'⟩ := rebuild_refines
        (w1 := WSet.restoreTmp o.toNat (fun i : Nat => w.getType i) (fun i : Nat => w.getStatus i)
          (s.n - o.toNat) o.toNat (WSet.shiftDown o.toNat 0 (s.n - o.toNat) w))
        (s' := { s with
            type := fun i => s.type ((i + o.toNat) % s.n), status := fun i => s.status ((i + o.toNat) % s.n) })
        b1 (by
          intro i hi
          simp only at hi ⊢
          rw [b4, hmod i hi, a4]
          by_cases hc : i < s.n - o.toNat
          · rw [if_neg (by omega), if_pos (by omega), if_pos hc, A.type _ (by omega)]
          · rw [if_pos (by omega), if_neg hc, hgt _ (by omega)]) (by
          intro i hi
          simp only at hi ⊢
          rw [b5, hmod i hi, a5]
          by_cases hc : i < s.n - o.toNat
          · rw [if_neg (by omega), if_pos (by omega), if_pos hc, A.status _ (by omega)]
          · rw [if_pos (by omega), if_neg hc, hgs _ (by omega)]) (by
          intro i hi
          simp only at hi ⊢
          exact h _ (Nat.mod_lt _ (by omega)))
      refine ⟨{ WSet.restoreTmp o.toNat (fun i : Nat => w.getType i) (fun i : Nat => w.getStatus i)
          (s.n - o.toNat) o.toNat (WSet.shiftDown o.toNat 0 (s.n - o.toNat) w) with inact := fr, act := fx }, ?_, ?_, ?_⟩
      · simp only [a1, step, h1, h2, if_false]
        rw [e]
        rfl
      · simp only [step, h1, h2, if_false]
        exact A'
      · simp only [step, h1, h2, if_false]
        exact consistent_relist _

/-- Every properly used call refines the specification. -/
theorem step_refines (k : Kind) (A : Abs w s) (C : Consistent s) (op : WSet.Op) (h : Proper s op) :
    ∃ w', w.step k op = .ok ((step k s op).1, w') ∧ Abs w' (step k s op).2 ∧ Consistent (step k s op).2 := by
  cases op with
  | setType i t =>
    obtain ⟨w', e, A', C'⟩ := setType_refines k A C i t
    exact ⟨w', by rw [WSet.step, e], A', C'⟩
  | setup i st => exact setup_refines k A C i st h
  | setupAll st =>
    obtain ⟨hf, hx⟩ := blank_lists C h.1
    exact setupAll_refines k A C st hf hx h
  | moveToInact i => exact moveToInact_refines k A C i h
  | moveToAct i st => exact moveToAct_refines k A C i st h
  | flip i =>
    obtain ⟨w', e, A', C'⟩ := flip_refines k A C i
    exact ⟨w', by rw [WSet.step, e], A', C'⟩
  | swap i j => exact swap_refines k A C i j h
  | shift o => exact shift_refines k A C o h
  | rotate o => exact rotate_refines k A C o h

theorem run_refines (k : Kind) (ops : List WSet.Op) : ∀ {w : WSet} {s : WorkingSet}, Abs w s → Consistent s →
    ProperHistory k s ops →
    ∃ w', w.run k ops = .ok ((run k s ops).1, w') ∧ Abs w' (run k s ops).2 ∧ Consistent (run k s ops).2 := by
  induction ops with
  | nil => intro w s A C _; exact ⟨w, rfl, A, C⟩
  | cons op ops ih =>
    intro w s A C h
    obtain ⟨w1, e1, A1, C1⟩ := step_refines k A C op h.1
    obtain ⟨w2, e2, A2, C2⟩ := ih A1 C1 h.2
    exact ⟨w2, by simp [WSet.run, WorkingSet.run, e1, e2], A2, C2⟩

theorem init_abs (w : WSet) (n : Nat) : Abs (w.init n).2 (blank n) := by
  have h1 : (w.init n).2 = { n := n, type := fun _ => ST_UNKNOWN, status := fun _ => ST_UNDEFINED, noLower := true, noUpper := true, inact := (w.inact.init n).2, act := (w.act.init n).2 } := by
    simp [WSet.init, show ¬ ((n : Int) < 0) by omega]
  rw [h1]
  obtain ⟨_, Rf, hf⟩ := Indexlist.init_rep w.inact (n := (n : Int)) (by omega)
  obtain ⟨_, Rx, hx⟩ := Indexlist.init_rep w.act (n := (n : Int)) (by omega)
  exact ⟨rfl, fun _ _ => rfl, fun _ _ => rfl, ⟨id, Rf⟩, ⟨id, Rx⟩, by simpa [blank] using hf, by simpa [blank] using hx⟩

theorem partition_perm (C : Consistent s) (hc : s.Complete) :
    (s.free ++ s.fixed).Perm (select s.n (fun _ => true)) := by
  rw [List.perm_ext_iff_of_nodup]
  · intro x
    rw [List.mem_append, C.free_iff, C.fixed_iff, mem_select]
    constructor
    · rintro (⟨i, hi, rfl, _⟩ | ⟨i, hi, rfl, _⟩) <;> exact ⟨i, hi, rfl, rfl⟩
    · rintro ⟨i, hi, rfl, _⟩
      rcases hc i hi with h | h
      · exact Or.inl ⟨i, hi, rfl, h⟩
      · exact Or.inr ⟨i, hi, rfl, h⟩
  · rw [List.nodup_append]
    refine ⟨C.free_nodup, C.fixed_nodup, ?_⟩
    intro a ha b hb hab
    obtain ⟨i, hi, he, h1⟩ := (C.free_iff a).1 ha
    obtain ⟨j, hj, he2, h2⟩ := (C.fixed_iff b).1 hb
    have : i = j := by omega
    subst this
    rw [isInactive_iff.1 h1] at h2
    simp [isActive] at h2
  · exact nodup_select _ _

theorem partition_count (C : Consistent s) (hc : s.Complete) : s.free.length + s.fixed.length = s.n := by
  have := (partition_perm C hc).length_eq
  rwa [List.length_append, length_select_true] at this

end WSP
end QpOASES
