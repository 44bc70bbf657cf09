import Verif.Proofs.FarLimits
import Verif.Proofs.QPBOutcome
import Verif.Proofs.QPBSession
import Verif.Proofs.QPBCheck

/-!
Hotstarts and cold starts of the solver for simple bounds with far bounds: the loop of `hotstart` that moves the far limits.
-/
namespace QpOASES
open Finset Props Spec SubjectToStatus SubjectToType ReturnValue HessianType QProblemStatus

set_option linter.unusedSectionVars false

variable {K : Type} [Field K] [LinearOrder K] [IsStrictOrderedRing K]

namespace QPB

/-- The far limits lie within the limits given. -/
structure Within (n : Nat) (lbNew ubNew : Option (Nat → K)) (lf uf : Nat → K) : Prop where
  lower : ∀ l, lbNew = some l → ∀ i < n, l i ≤ lf i
  upper : ∀ u, ubNew = some u → ∀ i < n, uf i ≤ u i

/-- The point is on no limit that is not one of those given. -/
structure Clear (s : QPB K) (lbNew ubNew : Option (Nat → K)) (lf uf : Nat → K) : Prop where
  lower : ∀ i < s.nV, (∀ l, lbNew = some l → l i < lf i) → s.x i ≠ lf i
  upper : ∀ i < s.nV, (∀ u, ubNew = some u → uf i < u i) → s.x i ≠ uf i

theorem updateFarBounds_within {s : QPB K} {cur : K} {n : Nat} {lbNew ubNew : Option (Nat → K)} {lf uf : Nat → K} {p : (Nat → K) × (Nat → K)}
    (e : updateFarBounds s cur n lbNew ubNew s.nV 0 lf uf = .ok p) : Within s.nV lbNew ubNew p.1 p.2 := by
  obtain ⟨a1, a2⟩ := updateFarB_within _ _ _ _ _ _ e (fun _ _ j hj => absurd hj (by omega)) (fun _ _ j hj => absurd hj (by omega))
  rw [Nat.zero_add] at a1 a2
  exact ⟨a1, a2⟩

theorem nActiveFar_clear {s : QPB K} {lbNew ubNew : Option (Nat → K)} {lf uf : Nat → K} {tol : K} (ht : 0 < tol)
    (h : s.nActiveFar lbNew ubNew lf uf tol = 0) : Clear s lbNew ubNew lf uf := by
  unfold nActiveFar at h
  obtain ⟨h1, h2⟩ := Nat.add_eq_zero_iff.1 h
  refine ⟨fun i hi hp => countP_clear ht h1 i hi ?_, fun i hi hp => countP_clear ht h2 i hi ?_⟩
  · cases lbNew with
    | none => rfl
    | some l => exact decide_eq_true (hp l rfl)
  · cases ubNew with
    | none => rfl
    | some l => exact decide_eq_true (hp l rfl)

/-- A solution for far limits that is on none of them is a solution for the limits given. -/
theorem optimal_clear {n : Nat} {H : Nat → Nat → K} {g x y lf uf : Nat → K} {lbNew ubNew : Option (Nat → K)}
    (h : BoxOptimal n H g lf uf (lowerOf lbNew) (upperOf ubNew) x y) (hw : Within n lbNew ubNew lf uf)
    (h1 : ∀ i < n, (∀ l, lbNew = some l → l i < lf i) → x i ≠ lf i)
    (h2 : ∀ i < n, (∀ u, ubNew = some u → uf i < u i) → x i ≠ uf i) :
    BoxOptimal n H g (lowerOf lbNew) (upperOf ubNew) (lowerOf lbNew) (upperOf ubNew) x y := by
  obtain ⟨⟨s1, s2, s3, s4, s5⟩, o1, o2⟩ := h
  have low : ∀ {b : Option (Nat → K)} {v : K} {i : Nat}, (∀ l, b = some l → l i ≤ v) → ¬ (∀ l, b = some l → l i < v) → v = lowerOf b i := by
    intro b v i ha hb
    rw [not_forall] at hb
    obtain ⟨l, hb⟩ := hb
    rw [Classical.not_imp] at hb
    obtain ⟨rfl, hb⟩ := hb
    exact le_antisymm (not_lt.1 hb) (ha l rfl)
  have upp : ∀ {b : Option (Nat → K)} {v : K} {i : Nat}, (∀ l, b = some l → v ≤ l i) → ¬ (∀ l, b = some l → v < l i) → v = upperOf b i := by
    intro b v i ha hb
    rw [not_forall] at hb
    obtain ⟨l, hb⟩ := hb
    rw [Classical.not_imp] at hb
    obtain ⟨rfl, hb⟩ := hb
    exact le_antisymm (ha l rfl) (not_lt.1 hb)
  refine ⟨⟨s1, fun i hi hy => ?_, fun i hi hy => ?_, fun k hk => absurd hk (Nat.not_lt_zero _), fun k hk => absurd hk (Nat.not_lt_zero _)⟩,
    fun hh i hi => ?_, fun hh i hi => ?_⟩
  · exact (s2 i hi hy).trans (low (fun l hl => hw.lower l hl i hi) fun hn => h1 i hi hn (s2 i hi hy))
  · exact (s3 i hi hy).trans (upp (fun l hl => hw.upper l hl i hi) fun hn => h2 i hi hn (s3 i hi hy))
  · refine le_trans ?_ (o1 hh i hi)
    cases lbNew with
    | none => obtain ⟨_, _, hh⟩ := hh; exact absurd hh (lt_irrefl _)
    | some l => exact hw.lower l rfl i hi
  · refine le_trans (o2 hh i hi) ?_
    cases ubNew with
    | none => obtain ⟨_, _, hh⟩ := hh; exact absurd hh (lt_irrefl _)
    | some l => exact hw.upper l rfl i hi

/-! ### a round -/

/-- State and far limits with which a round may begin: the far limits do not cross, and the point respects the limits of the object. -/
structure FarRound (s : QPB K) (lf uf : Nat → K) : Prop where
  box : ∀ i < s.nV, lf i ≤ uf i
  point : ∀ i < s.nV, s.lb i ≤ s.x i ∧ s.x i ≤ s.ub i
  equal : EqualitiesOK s (some lf) (some uf)

/-- How a call of the solver ends. -/
theorem solveQP_ends {sq : K → K} {s : QPB K} {gNew : Nat → K} {lbNew ubNew : Option (Nat → K)} {nWSR : Int} {c : Option K}
    {performed : Int} {o : Out K} (hr : ¬ NotReady s) (h : solveQP sq s gNew lbNew ubNew nWSR c performed = .ok o) :
    o.s.infeasible = false ∧ (o.s.status = QPS_SOLVED → o.rv = SUCCESSFUL_RETURN ∨ o.rv = RET_MAX_NWSR_REACHED) ∧
    o.rv ≠ RET_HOTSTART_STOPPED_UNBOUNDEDNESS := by
  by_cases hp : performed ≤ nWSR
  · have hl := solveQP_cases hr hp h
    refine ⟨hl.infeasible, fun hs => ?_, fun hh => ?_⟩
    · rcases hl.outcome with h | h | h
      · exact Or.inl h.1
      · exact Or.inr h.1
      · rw [hs] at h; cases h.2
    · rcases hl.outcome with h | h | h
      · rw [hh] at h; cases h.1
      · rw [hh] at h; cases h.1
      · have := h.1
        rw [hh] at this
        unfold Failure at this
        revert this
        decide
  · unfold solveQP at h
    unfold NotReady at hr
    rw [if_neg hr, show (nWSR - performed).toNat = 0 by omega] at h
    dsimp only at h
    rw [solveLoop] at h
    simp only [Res.ok.injEq] at h
    rw [← h]
    refine ⟨?_, fun _ => Or.inr rfl, fun hh => by cases hh⟩
    obtain ⟨f1, f2, k, f3⟩ := finish_keep ({ ((s.startClock c).2.setupSubjectToType lbNew ubNew) with infeasible := false, unbounded := false } : QPB K)
      RET_MAX_NWSR_REACHED nWSR c (s.startClock c).1
    rw [f3]

theorem Live.frame {sq : K → K} {n : Nat} {M : Nat → Nat → K} {s : QPB K} (h : Live sq n M s) (inf unb : Bool) (st : QProblemStatus)
    (hst : st = QPS_AUXILIARYQPSOLVED ∨ st = QPS_HOMOTOPYQPSOLVED ∨ st = QPS_SOLVED) (count off now : Nat) :
    Live sq n M { s with infeasible := inf, unbounded := unb, status := st, count := count, rampOffset := off, now := now } :=
  ⟨h.inv.frame s.tau inf unb st count off now s.flip, hst, h.nV, h.pos, h.chol, h.reg, h.hess, h.sqrt, h.types⟩

theorem Live.solve {sq : K → K} {n : Nat} {M : Nat → Nat → K} {s : QPB K} (h : Live sq n M s) {g lf uf : Nat → K} {nWSR performed : Int}
    {cputime : Option K} (hr : FarRound s lf uf) (hc : RunClean sq s g (some lf) (some uf) nWSR cputime performed) :
    ∃ o, solveQP sq s g (some lf) (some uf) nWSR cputime performed = .ok o ∧
      (o.rv = SUCCESSFUL_RETURN → Solved o.s g (some lf) (some uf) ∧ SameProblem o.s (s.setupSubjectToType (some lf) (some uf)) ∧ Live sq n M o.s) ∧
      (o.rv = RET_MAX_NWSR_REACHED → SameProblem o.s (s.setupSubjectToType (some lf) (some uf)) ∧ Live sq n M o.s) := by
  have hI : (s.setupSubjectToType (some lf) (some uf)).Inv := h.inv.retype (fun i hi e => ⟨(hr.equal.now i hi e).1, (hr.equal.now i hi e).2.1⟩)
    hr.equal.before (fun _ i hi _ => (hr.point i hi).1) (fun _ i hi _ => (hr.point i hi).2)
  have hty : ∀ i < s.nV, (s.setupSubjectToType (some lf) (some uf)).bounds.type i = s.typeOf (some lf) (some uf) i := fun i hi => if_pos hi
  have hT : Target (s.setupSubjectToType (some lf) (some uf)) (lowerOf (some lf)) (upperOf (some uf)) := by
    refine ⟨hr.box, fun i hi e => ?_⟩
    rw [hty i hi] at e
    exact (hr.equal.now i hi e).2.2
  obtain ⟨o, o1, o2, o3⟩ := solveQP_spec h.sqrt nWSR cputime performed h.status hI hT hc
  have key : o.s.Inv → SameProblem o.s (s.setupSubjectToType (some lf) (some uf)) →
      (o.s.status = QPS_AUXILIARYQPSOLVED ∨ o.s.status = QPS_HOMOTOPYQPSOLVED ∨ o.s.status = QPS_SOLVED) → Live sq n M o.s := by
    intro k1 k2 k3
    refine ⟨k1, k3, k2.nV.trans h.nV, h.pos, k2.chol.trans h.chol, ?_, ?_, ?_, ?_⟩
    · unfold usingRegularisation; rw [k2.reg]; exact h.reg
    · rw [k2.hess]; exact h.hess
    · exact k2.sqrt h.sqrt
    · intro i hi e
      rw [k2.type, hty i (by rw [h.nV]; exact hi)] at e
      rw [k2.options]
      exact typeOf_eq (s := s) e
  refine ⟨o, o1, fun hr => ?_, fun hr => ?_⟩
  · obtain ⟨a1, a2⟩ := o2 hr
    exact ⟨a1, a2, key a1.inv a2 (Or.inr (Or.inr a1.status))⟩
  · obtain ⟨a1, a2, a3⟩ := o3 hr
    refine ⟨a2, key a1 a2 ?_⟩
    rcases a3 with a3 | a3
    · rw [a3]; exact h.status
    · exact Or.inr (Or.inl a3)

/-! ### the loop -/

/-- The time limit of a round -/
def farTime (cputime : Option K) (needed remaining : K) : K := match cputime with | some c => c - needed | none => remaining

/-- Every round of the far bound loop may begin and is exact. -/
def FarClean (sq : K → K) (gNew : Nat → K) (lbNew ubNew : Option (Nat → K)) (nWSR : Int) (cputime : Option K) :
    (fuel : Nat) → QPB K → (farbound : K) → (lf uf : Nat → K) → (performed : Int) → (needed remaining : K) → Prop
  | 0, _, _, _, _, _, _, _ => True
  | fuel+1, s, farbound, lf, uf, performed, needed, remaining =>
    FarRound s lf uf ∧
    RunClean sq s gNew (some lf) (some uf) nWSR (some (farTime cputime needed remaining)) performed ∧
    ∀ o, solveQP sq s gNew (some lf) (some uf) nWSR (some (farTime cputime needed remaining)) performed = .ok o →
      o.s.status = QPS_SOLVED → ∀ q, cdiv (farbound * o.s.options.growFarBounds) o.s.options.growFarBounds = .ok q →
      ¬ o.s.nActiveFar lbNew ubNew lf uf (q * o.s.options.boundTolerance) = 0 →
      ¬ farbound * o.s.options.growFarBounds ≥ INFTY →
      ∀ p, updateFarBounds { o.s with status := QPS_HOMOTOPYQPSOLVED } (farbound * o.s.options.growFarBounds) o.s.nV lbNew ubNew o.s.nV 0 lf uf = .ok p →
      FarClean sq gNew lbNew ubNew nWSR cputime fuel
        { o.s with status := QPS_HOMOTOPYQPSOLVED, rampOffset := o.s.rampOffset + 1 } (farbound * o.s.options.growFarBounds) p.1 p.2 o.nWSR
        (needed + o.cputime.getD 0) (o.cputime.getD 0)

/-- What a run with far bounds ends with: a solution for far limits, on none of which the point is -/
def FarSolved (s : QPB K) (gNew : Nat → K) (lbNew ubNew : Option (Nat → K)) : Prop :=
  ∃ lf uf, Within s.nV lbNew ubNew lf uf ∧ Clear s lbNew ubNew lf uf ∧ Solved s gNew (some lf) (some uf) ∧
    ((∃ i < s.nV, -INFTY < lf i) → s.bounds.noLower = false) ∧ ((∃ i < s.nV, uf i < INFTY) → s.bounds.noUpper = false)

/-- The ends of a run with far bounds -/
structure FarEnd (sq : K → K) (n : Nat) (M : Nat → Nat → K) (opt : Options K) (gNew : Nat → K) (lbNew ubNew : Option (Nat → K)) (o : Out K) : Prop where
  solved : o.rv = SUCCESSFUL_RETURN → FarSolved o.s gNew lbNew ubNew ∧ Live sq n M o.s ∧ o.s.options = opt
  stopped : o.rv = RET_MAX_NWSR_REACHED → Live sq n M o.s ∧ o.s.options = opt

theorem Live.ready {sq : K → K} {n : Nat} {M : Nat → Nat → K} {s : QPB K} (h : Live sq n M s) : ¬ NotReady s := by
  unfold NotReady
  rcases h.status with h | h | h <;> rw [h] <;> decide

theorem farLoop_spec {sq : K → K} {gNew : Nat → K} {lbNew ubNew : Option (Nat → K)} {nWSR : Int} {cputime : Option K}
    {n : Nat} {M : Nat → Nat → K} (opt : Options K) (hgrow : 0 < opt.growFarBounds) (htol : 0 < opt.boundTolerance) :
    ∀ (fuel : Nat) (s : QPB K) (farbound : K) (lf uf : Nat → K) (performed : Int) (needed remaining : K) (o : Out K) (t : K),
    s.options = opt → Live sq n M s → 0 < farbound → Within n lbNew ubNew lf uf →
    FarClean sq gNew lbNew ubNew nWSR cputime fuel s farbound lf uf performed needed remaining →
    farLoop sq gNew lbNew ubNew nWSR cputime fuel s farbound lf uf performed needed remaining = .ok (o, t) →
    FarEnd sq n M opt gNew lbNew ubNew o := by
  intro fuel
  induction fuel with
  | zero => intro s fb lf uf p ne re o t _ _ _ _ _ e; unfold farLoop at e; cases e
  | succ fuel ih =>
    intro s fb lf uf p ne re o t hopt hL hfb hw hc e
    obtain ⟨hR, hrun, hc⟩ := hc
    unfold farLoop at e
    dsimp only at e
    rw [Res.bind_eq_ok] at e
    obtain ⟨o1, e1, e⟩ := e
    have e1 : solveRegularisedQP sq s gNew (some lf) (some uf) nWSR (some (farTime cputime ne re)) p = .ok o1 := e1
    unfold solveRegularisedQP at e1
    rw [if_pos hL.reg] at e1
    have hc := hc o1 e1
    obtain ⟨o1', e1', j1, j2⟩ := hL.solve hR hrun
    rw [e1, Res.ok.injEq] at e1'
    subst e1'
    obtain ⟨hi, hsv, -⟩ := solveQP_ends hL.ready e1
    rw [if_neg (by rw [hi]; decide)] at e
    split at e
    · rename_i hst
      have hc := hc hst
      have k : SameProblem o1.s (s.setupSubjectToType (some lf) (some uf)) ∧ Live sq n M o1.s := by
        rcases hsv hst with h | h
        · exact (j1 h).2
        · exact j2 h
      obtain ⟨k2, k3⟩ := k
      have ho1 : o1.s.options = opt := k2.options.trans hopt
      rw [Res.bind_eq_ok] at e
      obtain ⟨q, eq, e⟩ := e
      have hc := hc q eq
      have hq : q = fb := by
        rw [ho1] at eq
        unfold cdiv at eq
        rw [if_neg hgrow.ne', Res.ok.injEq] at eq
        rw [← eq, mul_div_assoc, div_self hgrow.ne', mul_one]
      split at e
      · rename_i hz
        simp only [Res.ok.injEq, Prod.mk.injEq] at e
        rw [← e.1]
        refine ⟨fun hr => ⟨⟨lf, uf, by rw [k3.nV]; exact hw, nActiveFar_clear ?_ hz, (j1 hr).1, ?_, ?_⟩, k3, ho1⟩, fun _ => ⟨k3, ho1⟩⟩
        · rw [ho1, hq]
          exact mul_pos hfb htol
        · intro hh
          rw [k2.noLower]
          exact noLower_false (s := s) (by rw [k2.nV] at hh; exact hh)
        · intro hh
          rw [k2.noUpper]
          exact noUpper_false (s := s) (by rw [k2.nV] at hh; exact hh)
      · rename_i hz
        have hc := hc hz
        split at e
        · rename_i hinf
          simp only [Res.ok.injEq, Prod.mk.injEq] at e
          rw [← e.1]
          exact ⟨fun hr => absurd hr (by simp), fun hr => absurd hr (by simp)⟩
        · rename_i hinf
          have hc := hc hinf
          rw [Res.bind_eq_ok] at e
          obtain ⟨f', ef, e⟩ := e
          have hfb' : 0 < fb * o1.s.options.growFarBounds := mul_pos hfb (by rw [ho1]; exact hgrow)
          have hw' := updateFarBounds_within (s := { o1.s with status := QPS_HOMOTOPYQPSOLVED }) ef
          rw [show ({ o1.s with status := QPS_HOMOTOPYQPSOLVED } : QPB K).nV = n from k3.nV] at hw'
          refine ih _ _ _ _ _ _ _ o t ?_ ?_ hfb' hw' (hc f' ef) e
          · exact ho1
          · exact k3.frame o1.s.infeasible o1.s.unbounded QPS_HOMOTOPYQPSOLVED (Or.inr (Or.inl rfl)) o1.s.count (o1.s.rampOffset + 1) o1.s.now
    · rename_i hst
      simp only [Res.ok.injEq, Prod.mk.injEq] at e
      rw [← e.1]
      exact ⟨fun hr => absurd (j1 hr).1.status hst, fun hr => ⟨(j2 hr).2, (j2 hr).1.options.trans hopt⟩⟩

/-- Options for far bounds: the parameters are positive. -/
structure FarOptions (o : Options K) : Prop where
  on : o.enableFarBounds = true
  initial : 0 < o.initialFarBounds
  grow : 0 < o.growFarBounds
  tol : 0 < o.boundTolerance

/-- The hypotheses on a run with far bounds -/
def FarRunClean (sq : K → K) (fuel : Nat) (s : QPB K) (gNew : Nat → K) (lbNew ubNew : Option (Nat → K)) (nWSR : Int)
    (cputime : Option K) : Prop :=
  ∀ p, updateFarBounds s (s.initialFar lbNew ubNew) s.nV lbNew ubNew s.nV 0 (fun _ => 0) (fun _ => 0) = .ok p →
    FarClean sq gNew lbNew ubNew nWSR cputime fuel s (s.initialFar lbNew ubNew) p.1 p.2 0 0 INFTY

/-- The run of `hotstart` once the Cholesky factor is there, src/QProblemB.cpp:461-577 -/
def runOn (sq : K → K) (fuel : Nat) (s : QPB K) (gNew : Nat → K) (lbNew ubNew : Option (Nat → K)) (nWSR : Int)
    (cputime : Option K) (auxTime : K) : Res (Out K) :=
  if s.options.enableFarBounds = false then
    solveRegularisedQP sq s gNew lbNew ubNew nWSR cputime 0
  else do
    let farbound := s.initialFar lbNew ubNew
    let (lf, uf) ← updateFarBounds s farbound s.nV lbNew ubNew s.nV 0 (fun _ => 0) (fun _ => 0)
    let (o, needed) ← farLoop sq gNew lbNew ubNew nWSR cputime fuel s farbound lf uf 0 0 INFTY
    .ok { o with cputime := cputime.map fun _ => needed + auxTime }

theorem runOn_far {sq : K → K} (fuel : Nat) {n : Nat} {M : Nat → Nat → K} {s : QPB K} (h : Live sq n M s)
    (hf : FarOptions s.options) {gNew : Nat → K} {lbNew ubNew : Option (Nat → K)} {nWSR : Int} {cputime : Option K} {aux : K}
    (hc : FarRunClean sq fuel s gNew lbNew ubNew nWSR cputime) {o : Out K}
    (e : runOn sq fuel s gNew lbNew ubNew nWSR cputime aux = .ok o) : FarEnd sq n M s.options gNew lbNew ubNew o := by
  unfold runOn at e
  rw [if_neg (by rw [hf.on]; decide), Res.bind_eq_ok] at e
  obtain ⟨f, ef, e⟩ := e
  dsimp only at e
  rw [Res.bind_eq_ok] at e
  obtain ⟨⟨o1, t⟩, e1, e⟩ := e
  simp only [Res.ok.injEq] at e
  have hpos := hf.initial.trans_le (initialFar_spec s lbNew ubNew).1
  have hw := updateFarBounds_within ef
  rw [h.nV] at hw
  have := farLoop_spec s.options hf.grow hf.tol fuel s _ f.1 f.2 0 0 INFTY o1 t rfl h hpos hw (hc f ef) e1
  rw [← e]
  exact ⟨this.solved, this.stopped⟩

theorem hotstart_runOn {sq : K → K} {fuel : Nat} {s : QPB K} {gNew : Nat → K} {lbNew ubNew : Option (Nat → K)} {nWSR : Int}
    {cputime : Option K} (hn : s.nV ≠ 0) (hb : s.areBoundsConsistent lbNew ubNew = true) (hch : s.haveCholesky = true) :
    QPB.hotstart sq fuel s gNew lbNew ubNew nWSR cputime .null = runOn sq fuel { s with count := s.count + 1 } gNew lbNew ubNew nWSR cputime 0 := by
  unfold QPB.hotstart
  rw [if_neg hn]
  dsimp only
  unfold hotstartMain
  rw [if_neg (by rw [hb]; decide)]
  dsimp only
  rw [if_neg (by rw [hch]; decide), Res.bind_ok]
  dsimp only
  rw [if_neg (by simp)]
  rfl

theorem Live.hotstart_far {sq : K → K} (fuel : Nat) {n : Nat} {M : Nat → Nat → K} {s : QPB K} (h : Live sq n M s)
    (hf : FarOptions s.options) {g : Nat → K} {lbNew ubNew : Option (Nat → K)} {nWSR : Int} {cputime : Option K}
    (hbox : ∀ i < n, lowerOf lbNew i ≤ upperOf ubNew i)
    (hc : FarRunClean sq fuel { s with count := s.count + 1 } g lbNew ubNew nWSR cputime) {o : Out K}
    (e : QPB.hotstart sq fuel s g lbNew ubNew nWSR cputime .null = .ok o) : FarEnd sq n M s.options g lbNew ubNew o := by
  rw [hotstart_runOn (by rw [h.nV]; exact h.pos) (consistent_of_target (by rw [h.nV]; exact hbox)) h.chol] at e
  exact runOn_far (s := { s with count := s.count + 1 }) fuel (h.frame s.infeasible s.unbounded s.status h.status (s.count + 1) s.rampOffset s.now) hf hc e

/-! ### cold starts -/

/-- Where the run of a cold start begins: after the auxiliary QP has been set up and the Cholesky factor computed -/
def StartsAt (sq : K → K) (s : QPB K) (xOpt yOpt : Option (Nat → K)) (guess : Option WS) (nWSR : Int) (cputime : Option K) (s2 : QPB K)
    (c : Option K) : Prop :=
  ∃ s', prepareInitialQP sq (s.startClock cputime).2 xOpt yOpt guess none nWSR cputime = .ok (.ok s') ∧
    setupInitialCholesky sq { (s'.stopClock cputime (s.startClock cputime).1).2 with
      count := (s'.stopClock cputime (s.startClock cputime).1).2.count + 1 } = .ok (SUCCESSFUL_RETURN, s2) ∧
    c = cputime.map fun c => c - (s'.stopClock cputime (s.startClock cputime).1).1.getD 0

/-- The first Cholesky factor is exact. -/
def StartClean (sq : K → K) (s : QPB K) (xOpt yOpt : Option (Nat → K)) (guess : Option WS) (nWSR : Int) (cputime : Option K) : Prop :=
  ∀ s2 c, StartsAt sq s xOpt yOpt guess nWSR cputime s2 c → s2.scalarH ∨ DiagOK s2.bounds.nFR s2.R

theorem solveInitialQP_cases {sq : K → K} (fuel : Nat) {s : QPB K} (hsq : (s.determineHessianType).2.SqrtFor sq) (h : ColdOK s)
    {xOpt yOpt : Option (Nat → K)} {guess : Option WS} {nWSR : Int} {cputime : Option K} (hs : SignOK s xOpt yOpt guess)
    (hc : StartClean sq s xOpt yOpt guess nWSR cputime) {o : Out K} (eo : solveInitialQP sq fuel s xOpt yOpt guess none nWSR cputime = .ok o)
    (hrv : o.rv = SUCCESSFUL_RETURN ∨ o.rv = RET_MAX_NWSR_REACHED) :
    ∃ s2 c o1 k, StartsAt sq s xOpt yOpt guess nWSR cputime s2 c ∧ s2.Inv ∧ ForProblem s2 s ∧ s2.status = QPS_AUXILIARYQPSOLVED ∧
      runOn sq fuel s2 s.g (some s.lb) (some s.ub) nWSR c 0 = .ok o1 ∧ o.rv = o1.rv ∧ o.s = { o1.s with now := k } := by
  have hframe : ∃ k, (s.startClock cputime).2 = { s with now := k } := by
    unfold startClock
    cases cputime with
    | none => exact ⟨s.now, rfl⟩
    | some c => exact ⟨s.now + 1, rfl⟩
  obtain ⟨k, ek⟩ := hframe
  have hdh : ({ s with now := k } : QPB K).determineHessianType = ((s.determineHessianType).1, { (s.determineHessianType).2 with now := k }) := by
    unfold determineHessianType ensureRegularisation
    dsimp only
    repeat' split
    all_goals rfl
  have hcold : ColdOK ({ s with now := k } : QPB K) :=
    ⟨h.free, h.fixed, h.n, h.nV, h.options, h.ramp, h.relax, h.noReg, h.regVal, h.box, h.eq,
      by rw [hdh]; exact h.type, by rw [hdh]; exact h.sym⟩
  have hheff : (({ s with now := k } : QPB K).determineHessianType).2.Heff = (s.determineHessianType).2.Heff := by rw [hdh]; rfl
  unfold solveInitialQP at eo
  dsimp only at eo
  unfold StartClean at hc
  obtain ⟨e, e1, e2, e3⟩ := prepareInitialQP_spec sq hcold xOpt yOpt guess nWSR cputime hs
  have e1' := e1
  rw [← ek] at e1'
  rw [e1', Res.bind_ok] at eo
  cases e with
  | error o' =>
    dsimp only at eo
    simp only [Res.ok.injEq] at eo
    subst eo
    have := e2 o' rfl
    rw [this] at hrv
    rcases hrv with h | h <;> cases h
  | ok s' =>
    dsimp only at eo
    have hA := (e3 s' rfl).1
    obtain ⟨k2, ek2⟩ := stopClock_frame s' cputime (s.startClock cputime).1
    have hq : ∀ s1, setupInitialCholesky sq { s' with now := k2, count := s'.count + 1 } = .ok (SUCCESSFUL_RETURN, s1) →
        StartsAt sq s xOpt yOpt guess nWSR cputime s1 (cputime.map fun c => c - (s'.stopClock cputime (s.startClock cputime).1).1.getD 0) := by
      intro s1 h1
      refine ⟨s', e1', ?_, rfl⟩
      rw [ek2]
      exact h1
    generalize hq1 : (s'.stopClock cputime (s.startClock cputime).1).1 = q1 at *
    rw [ek2] at eo
    have hte : s'.hessianType = (s.determineHessianType).2.hessianType := by rw [hA.htype, hdh]
    have hsc : SameScalar s' (s.determineHessianType).2 := by
      refine ⟨by rw [← hte], by rw [← hte], hA.regVal.trans ?_⟩
      obtain ⟨t, o, e1, -⟩ := determineHessianType_frame s
      rw [e1]
    have hsq' : s'.SqrtFor sq := hsc.sqrt hsq
    obtain ⟨r, s1, f1, f2, f3⟩ := setupInitialCholesky_spec hsq' (s := { s' with now := k2, count := s'.count + 1 }) hA.ws hA.n hA.hasH
      (by show s'.options.enableRegularisation = false; rw [hA.options]; exact h.noReg)
    have hnV : s'.nV ≠ 0 := by rw [hA.nV]; exact h.nV
    have hT := hA.target hcold
    have hbc : ({ s' with now := k2 } : QPB K).areBoundsConsistent (some s.lb) (some s.ub) = true := consistent_of_target hT.box
    have hhot : QPB.hotstart sq fuel { s' with now := k2 } s.g (some s.lb) (some s.ub) nWSR (cputime.map fun c => c - q1.getD 0) .null =
        if r ≠ SUCCESSFUL_RETURN then .ok ⟨r, nWSR, (cputime.map fun c => c - q1.getD 0), s1⟩
        else runOn sq fuel s1 s.g (some s.lb) (some s.ub) nWSR (cputime.map fun c => c - q1.getD 0) 0 := by
      unfold QPB.hotstart
      rw [if_neg (show ¬ s'.nV = 0 from hnV)]
      dsimp only
      unfold hotstartMain
      rw [if_neg (by rw [hbc]; decide)]
      dsimp only
      rw [if_pos hA.noChol, f1, Res.bind_ok]
      rfl
    rw [hhot] at eo
    by_cases hr : r = SUCCESSFUL_RETURN
    · subst hr
      rw [if_neg (by simp), Res.bind_eq_ok] at eo
      obtain ⟨o1, r1, eo⟩ := eo
      obtain ⟨⟨R, eR⟩, hF⟩ := f2 rfl
      have hstart := hq s1 f1
      have hdiag := hc s1 _ hstart
      subst eR
      have hF := hF hdiag
      have hI := hA.inv hcold hF
      have hfor : ForProblem ({ s' with now := k2, count := s'.count + 1, R := R, haveCholesky := true } : QPB K) s := by
        refine ⟨hA.nV, hA.hess.trans hheff, hA.options, rfl, hA.regVal, ?_, ?_, ?_, hsc⟩
        · have h1 : s'.bounds.noLower = _ := congrArg (fun q => q.bounds.noLower) hA.types.symm
          refine h1.trans ?_
          show ((List.range s'.nV).all fun i => !decide (s.lb i > -INFTY)) = _
          rw [hA.nV]; rfl
        · have h1 : s'.bounds.noUpper = _ := congrArg (fun q => q.bounds.noUpper) hA.types.symm
          refine h1.trans ?_
          show ((List.range s'.nV).all fun i => !decide (s.ub i < INFTY)) = _
          rw [hA.nV]; rfl
        · intro i hi
          exact hA.typeEq i (by rw [hA.nV]; exact hi)
      have fin : o = o1.s.finish o1.rv o1.nWSR o1.cputime (s.startClock cputime).1 := by
        split at eo
        · simp only [Res.ok.injEq] at eo
          rw [← eo] at hrv
          rcases hrv with h | h <;> cases h
        · split at eo
          · simp only [Res.ok.injEq] at eo
            rw [← eo] at hrv
            rcases hrv with h | h <;> cases h
          · split at eo
            · simp only [Res.ok.injEq] at eo
              rw [← eo] at hrv
              rcases hrv with h | h <;> cases h
            · simp only [Res.ok.injEq] at eo
              exact eo.symm
      obtain ⟨k3, ek3⟩ := finish_frame o1.s o1.rv o1.nWSR o1.cputime (s.startClock cputime).1
      exact ⟨_, _, o1, k3, hstart, hI, hfor, hA.status, r1, by rw [fin]; exact finish_rv .., by rw [fin]; exact ek3⟩
    · rw [if_pos hr, Res.bind_ok] at eo
      split at eo
      · simp only [Res.ok.injEq] at eo
        rw [← eo] at hrv
        rcases hrv with h | h <;> cases h
      · split at eo
        · simp only [Res.ok.injEq] at eo
          rw [← eo] at hrv
          rcases hrv with h | h <;> cases h
        · rw [if_pos ⟨hr, f3⟩] at eo
          simp only [Res.ok.injEq] at eo
          rw [← eo] at hrv
          rcases hrv with h | h <;> cases h

theorem init_far {sq : K → K} (fuel : Nat) {s : QPB K} (h : Usable s) (hf : FarOptions s.options) {H : Option (Nat → K)} {g : Nat → K}
    {lb ub : Option (Nat → K)} (ha : Admissible s (lowerOf lb) (upperOf ub)) {M : Nat → Nat → K} (hM : GivenHessian (s.coldData H g lb ub) M)
    (hsym : QP.Symmetric s.nV M) (hsq : ((s.coldData H g lb ub).determineHessianType).2.SqrtFor sq)
    {nWSR : Int} {cputime : Option K} {xOpt yOpt : Option (Nat → K)} {guess : Option WS}
    (hsign : SignOK (s.coldData H g lb ub) xOpt yOpt guess) (hc : StartClean sq (s.coldData H g lb ub) xOpt yOpt guess nWSR cputime)
    (hr : ∀ s2 c, StartsAt sq (s.coldData H g lb ub) xOpt yOpt guess nWSR cputime s2 c →
      FarRunClean sq fuel s2 g (some (lowerOf lb)) (some (upperOf ub)) nWSR c) {o : Out K}
    (e : init sq fuel s H (some g) lb ub nWSR cputime xOpt yOpt guess none = .ok o)
    (hrv : o.rv = SUCCESSFUL_RETURN ∨ o.rv = RET_MAX_NWSR_REACHED) :
    (o.rv = SUCCESSFUL_RETURN → FarSolved o.s g (some (lowerOf lb)) (some (upperOf ub))) ∧ Live sq s.nV M o.s ∧ o.s.options = s.options := by
  obtain ⟨c1, c2, c3, c4, c5, c6, c7, c8, c9, c10, c11⟩ := h.cold H g lb ub
  rcases init_cases sq fuel (s := s) (by rw [← c4]; exact c5) H g lb ub nWSR cputime xOpt yOpt guess with ⟨o', e', h1⟩ | e'
  · rw [e, Res.ok.injEq] at e'
    subst e'
    rw [h1] at hrv
    rcases hrv with h | h <;> cases h
  · rw [e'] at e
    obtain ⟨s2, cp, o1, k, a1, a2, a3, a4, a5, a6, a7⟩ := solveInitialQP_cases fuel hsq (h.coldOK ha hM hsym) hsign hc e hrv
    rw [c8, c9, c10] at a5
    have hl := Live.of_init h ha hM hsym hsq a2 a3 (Or.inl a4)
    have eo : s2.options = s.options := a3.options.trans c7
    obtain ⟨b1, b2⟩ := runOn_far fuel hl (by rw [eo]; exact hf) (hr s2 cp a1) a5
    have key : Live sq s.nV M o1.s ∧ o1.s.options = s.options := by
      rcases hrv with hrv | hrv
      · exact ⟨(b1 (a6.symm.trans hrv)).2.1, (b1 (a6.symm.trans hrv)).2.2.trans eo⟩
      · exact ⟨(b2 (a6.symm.trans hrv)).1, (b2 (a6.symm.trans hrv)).2.trans eo⟩
    refine ⟨fun hs => ?_, ?_, by rw [a7]; exact key.2⟩
    · obtain ⟨lf, uf, f1, f2, f3, f4, f5⟩ := (b1 (a6.symm.trans hs)).1
      rw [a7]
      exact ⟨lf, uf, f1, ⟨f2.lower, f2.upper⟩,
        ⟨f3.inv.frame o1.s.tau o1.s.infeasible o1.s.unbounded o1.s.status o1.s.count o1.s.rampOffset k o1.s.flip, f3.status, f3.length, f3.full⟩,
        f4, f5⟩
    · rw [a7]
      exact key.1.frame o1.s.infeasible o1.s.unbounded o1.s.status key.1.status o1.s.count o1.s.rampOffset k

theorem FarSolved.status {s : QPB K} {g : Nat → K} {lbNew ubNew : Option (Nat → K)} (h : FarSolved s g lbNew ubNew) :
    s.status = QPS_SOLVED := by
  obtain ⟨_, _, _, _, h, _⟩ := h
  exact h.status

/-- The optimality conditions for the limits given, after a full step -/
theorem FarSolved.optimal {sq : K → K} {n : Nat} {M : Nat → Nat → K} {s : QPB K} {g : Nat → K} {lbNew ubNew : Option (Nat → K)}
    (hs : FarSolved s g lbNew ubNew) (h : Live sq n M s) (ht : s.tau = 1) :
    BoxOptimal n s.Heff g (lowerOf lbNew) (upperOf ubNew) (lowerOf lbNew) (upperOf ubNew) s.x s.y := by
  obtain ⟨lf, uf, hw, hcl, hsol, hl, hu⟩ := hs
  obtain ⟨f1, f2, f3⟩ := hsol.full ht
  have hO := hsol.inv.opt
  rw [h.nV] at hw hl hu
  refine optimal_clear (lf := lf) (uf := uf) ?_ hw (fun i hi => hcl.lower i (by rw [h.nV]; exact hi)) (fun i hi => hcl.upper i (by rw [h.nV]; exact hi))
  have hb := hO.stationary hsol.inv.ws hsol.inv.n
  have hin := hO.within hsol.inv.ws hsol.inv.n
  rw [f1, f2, f3, h.nV] at hb
  rw [f2, f3, h.nV] at hin
  refine ⟨hb, fun ⟨i, hi, hh⟩ => hin.1 (hl ⟨i, hi, ?_⟩), fun ⟨i, hi, hh⟩ => hin.2 (hu ⟨i, hi, ?_⟩)⟩
  · cases lbNew with
    | none => exact absurd hh (lt_irrefl _)
    | some l => exact lt_of_lt_of_le hh (hw.lower l rfl i hi)
  · cases ubNew with
    | none => exact absurd hh (lt_irrefl _)
    | some l => exact lt_of_le_of_lt (hw.upper l rfl i hi) hh

/-! ### deciding the hypotheses -/

def equalAt (s : QPB K) (lf uf : Nat → K) (i : Nat) : Prop :=
  (s.typeOf (some lf) (some uf) i = ST_EQUALITY → s.bounds.status i ≠ ST_INACTIVE ∧ s.lb i = s.ub i ∧ lf i = uf i) ∧
  (s.typeOf (some lf) (some uf) i ≠ ST_EQUALITY → s.bounds.type i = ST_EQUALITY →
    (s.bounds.status i = ST_LOWER → 0 ≤ s.y i) ∧ (s.bounds.status i = ST_UPPER → s.y i ≤ 0))

instance (s : QPB K) (lf uf : Nat → K) (i : Nat) : Decidable (equalAt s lf uf i) := by unfold equalAt; infer_instance

def roundB (s : QPB K) (lf uf : Nat → K) : Bool :=
  decide (∀ i < s.nV, lf i ≤ uf i ∧ s.lb i ≤ s.x i ∧ s.x i ≤ s.ub i ∧ equalAt s lf uf i)

theorem roundB_spec {s : QPB K} {lf uf : Nat → K} (h : roundB s lf uf = true) : FarRound s lf uf := by
  have h := of_decide_eq_true h
  exact ⟨fun i hi => (h i hi).1, fun i hi => ⟨(h i hi).2.1, (h i hi).2.2.1⟩, ⟨fun i hi => (h i hi).2.2.2.1, fun i hi => (h i hi).2.2.2.2⟩⟩

def farB (sq : K → K) (gNew : Nat → K) (lbNew ubNew : Option (Nat → K)) (nWSR : Int) (cputime : Option K) :
    (fuel : Nat) → QPB K → (farbound : K) → (lf uf : Nat → K) → (performed : Int) → (needed remaining : K) → Bool
  | 0, _, _, _, _, _, _, _ => true
  | fuel+1, s, farbound, lf, uf, performed, needed, remaining =>
    roundB s lf uf &&
    runB sq s gNew (some lf) (some uf) nWSR (some (farTime cputime needed remaining)) performed &&
    (match solveQP sq s gNew (some lf) (some uf) nWSR (some (farTime cputime needed remaining)) performed with
     | .ok o =>
       if o.s.status = QPS_SOLVED then
         match cdiv (farbound * o.s.options.growFarBounds) o.s.options.growFarBounds with
         | .ok q =>
           if o.s.nActiveFar lbNew ubNew lf uf (q * o.s.options.boundTolerance) = 0 then true
           else if farbound * o.s.options.growFarBounds ≥ INFTY then true
           else
             match updateFarBounds { o.s with status := QPS_HOMOTOPYQPSOLVED } (farbound * o.s.options.growFarBounds) o.s.nV lbNew ubNew o.s.nV 0 lf uf with
             | .ok p => farB sq gNew lbNew ubNew nWSR cputime fuel
                { o.s with status := QPS_HOMOTOPYQPSOLVED, rampOffset := o.s.rampOffset + 1 } (farbound * o.s.options.growFarBounds) p.1 p.2 o.nWSR
                (needed + o.cputime.getD 0) (o.cputime.getD 0)
             | _ => true
         | _ => true
       else true
     | _ => true)

theorem farB_spec {sq : K → K} {gNew : Nat → K} {lbNew ubNew : Option (Nat → K)} {nWSR : Int} {cputime : Option K} :
    ∀ (fuel : Nat) (s : QPB K) (farbound : K) (lf uf : Nat → K) (performed : Int) (needed remaining : K),
    farB sq gNew lbNew ubNew nWSR cputime fuel s farbound lf uf performed needed remaining = true →
    FarClean sq gNew lbNew ubNew nWSR cputime fuel s farbound lf uf performed needed remaining := by
  intro fuel
  induction fuel with
  | zero => intros; trivial
  | succ fuel ih =>
    intro s fb lf uf p ne re h
    rw [farB, Bool.and_eq_true, Bool.and_eq_true] at h
    obtain ⟨⟨h1, h2⟩, h3⟩ := h
    refine ⟨roundB_spec h1, runB_spec h2, fun o e hst q eq hz hinf p' ep => ?_⟩
    rw [e] at h3
    dsimp only at h3
    rw [if_pos hst, eq] at h3
    dsimp only at h3
    rw [if_neg hz, if_neg hinf, ep] at h3
    exact ih _ _ _ _ _ _ _ h3

def farRunB (sq : K → K) (fuel : Nat) (s : QPB K) (gNew : Nat → K) (lbNew ubNew : Option (Nat → K)) (nWSR : Int) (cputime : Option K) : Bool :=
  match updateFarBounds s (s.initialFar lbNew ubNew) s.nV lbNew ubNew s.nV 0 (fun _ => 0) (fun _ => 0) with
  | .ok p => farB sq gNew lbNew ubNew nWSR cputime fuel s (s.initialFar lbNew ubNew) p.1 p.2 0 0 INFTY
  | _ => true

theorem farRunB_spec {sq : K → K} {fuel : Nat} {s : QPB K} {gNew : Nat → K} {lbNew ubNew : Option (Nat → K)} {nWSR : Int} {cputime : Option K}
    (h : farRunB sq fuel s gNew lbNew ubNew nWSR cputime = true) : FarRunClean sq fuel s gNew lbNew ubNew nWSR cputime := by
  intro p e
  unfold farRunB at h
  rw [e] at h
  exact farB_spec _ _ _ _ _ _ _ _ h

def farColdB (sq : K → K) (fuel : Nat) (s : QPB K) (xOpt yOpt : Option (Nat → K)) (guess : Option WS) (nWSR : Int) (cputime : Option K) : Bool :=
  match prepareInitialQP sq (s.startClock cputime).2 xOpt yOpt guess none nWSR cputime with
  | .ok (.ok s') =>
    let q := s'.stopClock cputime (s.startClock cputime).1
    match setupInitialCholesky sq { q.2 with count := q.2.count + 1 } with
    | .ok (SUCCESSFUL_RETURN, s2) =>
      decide (s2.scalarH ∨ DiagOK s2.bounds.nFR s2.R) &&
      farRunB sq fuel s2 s.g (some s.lb) (some s.ub) nWSR (cputime.map fun c => c - q.1.getD 0)
    | _ => true
  | _ => true

theorem farColdB_spec {sq : K → K} {fuel : Nat} {s : QPB K} {xOpt yOpt : Option (Nat → K)} {guess : Option WS} {nWSR : Int} {cputime : Option K}
    (h : farColdB sq fuel s xOpt yOpt guess nWSR cputime = true) : StartClean sq s xOpt yOpt guess nWSR cputime ∧
    ∀ s2 c, StartsAt sq s xOpt yOpt guess nWSR cputime s2 c → FarRunClean sq fuel s2 s.g (some s.lb) (some s.ub) nWSR c := by
  have key : ∀ s2 c, StartsAt sq s xOpt yOpt guess nWSR cputime s2 c → (s2.scalarH ∨ DiagOK s2.bounds.nFR s2.R) ∧
      FarRunClean sq fuel s2 s.g (some s.lb) (some s.ub) nWSR c := by
    rintro s2 c ⟨s', e1, e2, rfl⟩
    unfold farColdB at h
    rw [e1] at h
    dsimp only at h
    rw [e2] at h
    dsimp only at h
    rw [Bool.and_eq_true] at h
    exact ⟨of_decide_eq_true h.1, farRunB_spec h.2⟩
  exact ⟨fun s2 c e => (key s2 c e).1, fun s2 c e => (key s2 c e).2⟩

end QPB
end QpOASES
