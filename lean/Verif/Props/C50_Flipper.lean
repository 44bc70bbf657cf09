import Verif.Model.Flipper

/-!
C50: the flipping strategy restores the saved factorisation.
-/
namespace QpOASES.Props
open Flipper

variable {α : Type}

/-- Side length squared of the triangular factor: `min(nV,nC)²` elements. -/
def dimTSpec (nV nC : Nat) : Nat := min nV nC * min nV nC

/-- A flipper set up for a problem with `nV` variables and `nC` constraints: dimensions known, saved
arrays (if any) of the right size. -/
def FlipReady (nV nC : Nat) (f : Flipper α) : Prop :=
  f.nV = some nV ∧ f.nC = some nC ∧ (∀ m ∈ f.R, m.size = nV*nV) ∧ (∀ m ∈ f.Q, m.size = nV*nV) ∧
    ∀ m ∈ f.T, m.size = dimTSpec nV nC

/-- The result array holds the saved contents: where both the saved array and the target are given, the
first `n` elements are those of the saved array, and a target without saved array is unchanged. -/
def Restored (n : Nat) (saved target result : Option (Mem α)) : Prop :=
  match saved, target with
  | some s, some t => ∃ r, result = some r ∧ r.size = t.size ∧
      (∀ i < n, r.cell i = s.cell i) ∧ ∀ i, n ≤ i → r.cell i = t.cell i
  | _, _ => result = target

/-- The flipper's array after saving: a copy of the source, or unchanged if no source was given. -/
def Saved (n : Nat) (src own result : Option (Mem α)) : Prop :=
  match src with
  | some s => ∃ m, result = some m ∧ ∀ i < n, m.cell i = s.cell i
  | none => result = own

theorem getDimT_eq {nV nC : Nat} {f : Flipper α} (h : FlipReady nV nC f) :
    f.getDimT = .ok (dimTSpec nV nC) := by
  simp only [getDimT, h.1, h.2.1, dim, Res.bind_ok, Res.pure_eq, dimTSpec]
  congr 1
  by_cases hlt : nV > nC
  · rw [if_pos hlt, Nat.min_eq_right (by omega)]
  · rw [if_neg hlt, Nat.min_eq_left (by omega)]

theorem sqV_eq {nV nC : Nat} {f : Flipper α} (h : FlipReady nV nC f) : f.sqV = .ok (nV*nV) := by
  simp [sqV, h.1, dim]

theorem setArray_ok {own src : Option (Mem α)} {n : Nat} (ho : ∀ m ∈ own, m.size = n)
    (hs : ∀ m ∈ src, n ≤ m.size) :
    ∃ r, setArray own src (.ok n) = .ok r ∧ (∀ m ∈ r, m.size = n) ∧
      Saved n src own r := by
  cases src with
  | none => exact ⟨own, rfl, ho, rfl⟩
  | some s =>
    have h2 : n ≤ s.size := hs s rfl
    have h1 : (own.getD (Mem.alloc n)).size = n := by
      cases own with
      | none => rfl
      | some m => exact ho m rfl
    refine ⟨some ⟨n, fun i => if i < n then s.cell i else (own.getD (Mem.alloc n)).cell i⟩, ?_, ?_, ?_⟩
    · simp [setArray, Mem.memcpy, h1, h2]
    · intro m hm
      simp only [Option.mem_def, Option.some.injEq] at hm
      rw [← hm]
    · exact ⟨_, rfl, fun i hi => by simp [hi]⟩

theorem getArray_ok {dst own : Option (Mem α)} {n : Nat} (ho : ∀ m ∈ own, m.size = n)
    (hd : ∀ m ∈ dst, n ≤ m.size) :
    ∃ r, getArray dst own (.ok n) = .ok r ∧ Restored n own dst r := by
  cases own with
  | none => cases dst <;> exact ⟨_, rfl, rfl⟩
  | some s =>
    cases dst with
    | none => exact ⟨_, rfl, rfl⟩
    | some d =>
      have h1 : s.size = n := ho s rfl
      have h2 : n ≤ d.size := hd d rfl
      refine ⟨some ⟨d.size, fun i => if i < n then s.cell i else d.cell i⟩, ?_, ?_⟩
      · simp [getArray, Mem.memcpy, h1, h2]
      · refine ⟨_, rfl, rfl, fun i hi => by simp [hi], fun i hi => ?_⟩
        have : ¬ i < n := by omega
        simp [this]

/-- Saving never fails for arrays of the right size and keeps the flipper ready. -/
theorem set_ok {nV nC : Nat} {f : Flipper α} (hf : FlipReady nV nC f) (b c : Option WSet)
    (R Q T : Option (Mem α)) (hR : ∀ m ∈ R, nV*nV ≤ m.size) (hQ : ∀ m ∈ Q, nV*nV ≤ m.size)
    (hT : ∀ m ∈ T, dimTSpec nV nC ≤ m.size) :
    ∃ g, f.set b R c Q T = .ok g ∧ FlipReady nV nC g ∧ g.bounds = b.getD f.bounds ∧
      g.constraints = c.getD f.constraints ∧
      Saved (nV*nV) R f.R g.R ∧
      Saved (nV*nV) Q f.Q g.Q ∧
      Saved (dimTSpec nV nC) T f.T g.T := by
  obtain ⟨h1, h2, h3, h4, h5⟩ := hf
  have hf' : FlipReady nV nC { f with bounds := b.getD f.bounds, constraints := c.getD f.constraints } :=
    ⟨h1, h2, h3, h4, h5⟩
  obtain ⟨R', r1, r2, r3⟩ := setArray_ok h3 hR
  obtain ⟨Q', q1, q2, q3⟩ := setArray_ok h4 hQ
  obtain ⟨T', t1, t2, t3⟩ := setArray_ok h5 hT
  refine ⟨{ f with bounds := b.getD f.bounds, constraints := c.getD f.constraints, R := R', Q := Q', T := T' },
    ?_, ⟨h1, h2, r2, q2, t2⟩, rfl, rfl, r3, q3, t3⟩
  simp only [Flipper.set, sqV_eq hf', getDimT_eq hf', r1, q1, t1, Res.bind_ok, Res.pure_eq]

/-- C50: for every problem size, after saving working sets and factors, whatever happens to the solver's
own copies (the arbitrary target `t`), `get` delivers exactly the saved working sets and factors. -/
theorem C50_save_restore {nV nC : Nat} {f : Flipper α} (hf : FlipReady nV nC f) (b c : WSet)
    (R Q T : Mem α) (hR : nV*nV ≤ R.size) (hQ : nV*nV ≤ Q.size) (hT : dimTSpec nV nC ≤ T.size)
    (t : Target α) (tR : ∀ m ∈ t.R, nV*nV ≤ m.size) (tQ : ∀ m ∈ t.Q, nV*nV ≤ m.size)
    (tT : ∀ m ∈ t.T, dimTSpec nV nC ≤ m.size) :
    ∃ g r, f.set (some b) (some R) (some c) (some Q) (some T) = .ok g ∧ g.get t = .ok r ∧
      FlipReady nV nC g ∧
      (t.bounds.isSome → r.bounds = some b) ∧ (t.constraints.isSome → r.constraints = some c) ∧
      Restored (nV*nV) (some R) t.R r.R ∧ Restored (nV*nV) (some Q) t.Q r.Q ∧
      Restored (dimTSpec nV nC) (some T) t.T r.T := by
  obtain ⟨g, g1, g2, g3, g4, ⟨mR, eR, cR⟩, ⟨mQ, eQ, cQ⟩, ⟨mT, eT, cT⟩⟩ := set_ok hf (some b) (some c)
    (some R) (some Q) (some T) (by rintro m ⟨⟩; exact hR) (by rintro m ⟨⟩; exact hQ) (by rintro m ⟨⟩; exact hT)
  obtain ⟨i1, i2, i3, i4, i5⟩ := id g2
  obtain ⟨rR, a1, a2⟩ := getArray_ok i3 tR
  obtain ⟨rQ, a3, a4⟩ := getArray_ok i4 tQ
  obtain ⟨rT, a5, a6⟩ := getArray_ok i5 tT
  refine ⟨g, ⟨t.bounds.map fun _ => g.bounds, rR, t.constraints.map fun _ => g.constraints, rQ, rT⟩, g1, ?_,
    g2, ?_, ?_, ?_, ?_, ?_⟩
  · simp only [Flipper.get, sqV_eq g2, getDimT_eq g2, a1, a3, a5, Res.bind_ok, Res.pure_eq]
  · intro h; obtain ⟨x, hx⟩ := Option.isSome_iff_exists.1 h; simp [hx, g3]
  · intro h; obtain ⟨x, hx⟩ := Option.isSome_iff_exists.1 h; simp [hx, g4]
  · rw [eR] at a2
    cases ht : t.R with
    | none => rw [ht] at a2; exact a2
    | some d =>
      rw [ht] at a2
      obtain ⟨r, e1, e2, e3, e4⟩ := a2
      exact ⟨r, e1, e2, fun i hi => (e3 i hi).trans (cR i hi), e4⟩
  · rw [eQ] at a4
    cases ht : t.Q with
    | none => rw [ht] at a4; exact a4
    | some d =>
      rw [ht] at a4
      obtain ⟨r, e1, e2, e3, e4⟩ := a4
      exact ⟨r, e1, e2, fun i hi => (e3 i hi).trans (cQ i hi), e4⟩
  · rw [eT] at a6
    cases ht : t.T with
    | none => rw [ht] at a6; exact a6
    | some d =>
      rw [ht] at a6
      obtain ⟨r, e1, e2, e3, e4⟩ := a6
      exact ⟨r, e1, e2, fun i hi => (e3 i hi).trans (cT i hi), e4⟩

/-- C50 for problems without constraints (only bounds and the Cholesky factor are passed). -/
theorem C50_save_restore_bounds {nV nC : Nat} {f : Flipper α} (hf : FlipReady nV nC f) (b : WSet)
    (R : Mem α) (hR : nV*nV ≤ R.size) (b' : WSet) (R' : Mem α) (hR' : nV*nV ≤ R'.size) :
    ∃ g r, f.set (some b) (some R) none none none = .ok g ∧
      g.get ⟨some b', some R', none, none, none⟩ = .ok r ∧
      r.bounds = some b ∧ Restored (nV*nV) (some R) (some R') r.R := by
  obtain ⟨g, g1, g2, g3, -, ⟨mR, eR, cR⟩, -, -⟩ := set_ok hf (some b) none
    (some R) none none (by rintro m ⟨⟩; exact hR) (by rintro m ⟨⟩) (by rintro m ⟨⟩)
  obtain ⟨i1, i2, i3, i4, i5⟩ := id g2
  obtain ⟨rR, a1, a2⟩ := getArray_ok (dst := some R') i3 (by rintro m ⟨⟩; exact hR')
  refine ⟨g, ⟨some g.bounds, rR, none, none, none⟩, g1, ?_, by simp [g3], ?_⟩
  · simp only [Flipper.get, sqV_eq g2, getDimT_eq g2, a1, Res.bind_ok, Res.pure_eq]
    simp [getArray]
  · rw [eR] at a2
    obtain ⟨r, e1, e2, e3, e4⟩ := a2
    exact ⟨r, e1, e2, fun i hi => (e3 i hi).trans (cR i hi), e4⟩

/-- A freshly initialised flipper is ready (`QProblemB`/`QProblem` constructors and `reset` call `init`). -/
theorem init_ready (f : Flipper α) (nV nC : Nat) : FlipReady nV nC (f.init nV nC) :=
  ⟨rfl, rfl, by rintro m ⟨⟩, by rintro m ⟨⟩, by rintro m ⟨⟩⟩

/-! ### copying -/

/-- Full statement of the second half of C50: assigning a flipper to a new object preserves what `get`
delivers. -/
def C50_copy_statement (α : Type) : Prop :=
  ∀ (nV nC : Nat) (f : Flipper α), FlipReady nV nC f → ∀ t r, f.get t = .ok r →
    ∃ g, (Flipper.new : Flipper α).assign f = .ok g ∧ g.get t = .ok r

def sampleMem (x : Int) : Mem Int := ⟨1, fun _ => some x⟩

/-- The copy half is violated: the dimensions are not copied, so a copy held by a new object saves and
restores nothing of the factors. -/
theorem C50_copy_violated : ¬ C50_copy_statement Int := by
  intro H
  obtain ⟨g, g1, g2⟩ := H 1 0 ⟨some 1, some 0, emptySet, emptySet, some (sampleMem 5), none, none⟩
    ⟨rfl, rfl, by rintro m ⟨⟩; rfl, by rintro m ⟨⟩, by rintro m ⟨⟩⟩
    ⟨none, some (sampleMem 0), none, none, none⟩
    ⟨none, some ⟨1, fun i => if i < 1 then some 5 else some 0⟩, none, none, none⟩ rfl
  simp [assign, copy, Flipper.set, Flipper.new, Flipper.init, clear, raw, setArray, sqV, dim, Mem.memcpy,
    sampleMem, Mem.alloc] at g1
  subst g1
  simp [Flipper.get, getArray, sqV, dim, Mem.memcpy, sampleMem] at g2
  have := congrFun g2 0
  simp at this

/-- The copy constructor reads uninitialised dimensions as soon as something has been saved. -/
theorem C50_copy_constructor_undefined {nV nC : Nat} {f : Flipper α} (_hf : FlipReady nV nC f) (R : Mem α)
    (hR : f.R = some R) : copyConstruct f = .ub .uninitialised := by
  simp [copyConstruct, copy, Flipper.set, hR, setArray, sqV, raw, dim]

/-- What holds: assignment to an object that has been initialised with the same dimensions. -/
theorem C50_copy_partial {nV nC : Nat} {f g0 : Flipper α} (hf : FlipReady nV nC f)
    (hg : FlipReady nV nC g0) :
    ∃ g, g0.assign f = .ok g ∧ FlipReady nV nC g ∧ g.bounds = f.bounds ∧ g.constraints = f.constraints ∧
      Saved (nV*nV) f.R none g.R ∧
      Saved (nV*nV) f.Q none g.Q ∧
      Saved (dimTSpec nV nC) f.T none g.T := by
  have hc : FlipReady nV nC g0.clear := ⟨hg.1, hg.2.1, by rintro m ⟨⟩, by rintro m ⟨⟩, by rintro m ⟨⟩⟩
  obtain ⟨g, g1, g2, g3, g4, g5⟩ := set_ok hc (some f.bounds) (some f.constraints) f.R f.Q f.T
    (fun m hm => Nat.le_of_eq (hf.2.2.1 m hm).symm) (fun m hm => Nat.le_of_eq (hf.2.2.2.1 m hm).symm) (fun m hm => Nat.le_of_eq (hf.2.2.2.2 m hm).symm)
  exact ⟨g, g1, g2, g3, g4, g5⟩

/-- Non-vacuity: a 2x2 factor is saved by a freshly initialised flipper and restored over another one. -/
example : ∃ g r, ((Flipper.new : Flipper Int).init 2 0).set (some emptySet) (some (Mem.ofList [1,2,0,3]))
      none none none = .ok g ∧
    g.get ⟨some emptySet, some (Mem.ofList [9,9,9,9]), none, none, none⟩ = .ok r ∧
    r.bounds = some emptySet ∧
    Restored 4 (some (Mem.ofList [1,2,0,3])) (some (Mem.ofList [9,9,9,9])) r.R :=
  C50_save_restore_bounds (init_ready _ 2 0) _ _ (by decide) _ _ (by decide)

end QpOASES.Props
