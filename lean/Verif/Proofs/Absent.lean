import Verif.Proofs.QPCFarLoop
import Verif.Props.C42_C44_Limits

/-!
Absent vectors of limits are treated like vectors of infinite limits when far bounds are used.
-/
namespace QpOASES
open ReturnValue SubjectToStatus SubjectToType HessianType QProblemStatus

set_option linter.unusedSectionVars false

variable {K : Type} [Field K] [LinearOrder K] [IsStrictOrderedRing K]

namespace QPB

/-- Lower limits do not exceed the number representing infinity, upper limits are not below its negative. -/
structure InRange (n : Nat) (lbNew ubNew : Option (Nat → K)) : Prop where
  lower : ∀ l, lbNew = some l → ∀ i < n, l i ≤ INFTY
  upper : ∀ u, ubNew = some u → ∀ i < n, -INFTY ≤ u i

theorem consistent_absent {n : Nat} {lbNew ubNew : Option (Nat → K)} (h : InRange n lbNew ubNew) (ha : lbNew = none ∨ ubNew = none) :
    true = (List.range n).all fun i => !decide (lowerOf lbNew i > upperOf ubNew i + EPS) := by
  have e0 : (0 : K) < EPS := EPS_pos'
  have e1 : (0 : K) < INFTY := INFTY_pos
  symm
  rw [List.all_eq_true]
  intro i hi
  have hi := List.mem_range.1 hi
  suffices h : ¬ lowerOf lbNew i > upperOf ubNew i + EPS by rw [decide_eq_false h]; rfl
  cases lbNew with
  | none =>
    cases ubNew with
    | none => simp only [lowerOf, upperOf, Option.getD_none]; linarith
    | some u =>
      have := h.upper u rfl i hi
      simp only [lowerOf, upperOf, Option.getD_none, Option.getD_some]
      linarith
  | some l =>
    cases ubNew with
    | none =>
      have := h.lower l rfl i hi
      simp only [lowerOf, upperOf, Option.getD_none, Option.getD_some]
      linarith
    | some u => simp at ha

theorem areBoundsConsistent_absent {s : QPB K} {lbNew ubNew : Option (Nat → K)} (h : InRange s.nV lbNew ubNew) :
    s.areBoundsConsistent lbNew ubNew = s.areBoundsConsistent (some (lowerOf lbNew)) (some (upperOf ubNew)) := by
  cases lbNew with
  | none => exact consistent_absent h (Or.inl rfl)
  | some l =>
    cases ubNew with
    | none => exact consistent_absent h (Or.inr rfl)
    | some u => rfl

theorem loop_id {f : Nat → K → K} (h : ∀ i a, f i a = a) (n : Nat) (a : K) : loop f n a = a := by
  induction n with
  | zero => rfl
  | succ n ih => rw [show loop f (n+1) a = f n (loop f n a) from rfl, h, ih]

theorem raiseUpper_absent (n : Nat) (f : K) : loop (fun i f => if upperOf (K := K) none i < INFTY ∧ upperOf (K := K) none i > f then
    upperOf none i else f) n f = f :=
  loop_id (fun i a => if_neg (by simp only [upperOf, Option.getD_none]; exact fun h => lt_irrefl _ h.1)) _ _

theorem raiseLower_absent (n : Nat) (f : K) : loop (fun i f => if lowerOf (K := K) none i > -INFTY ∧ lowerOf (K := K) none i < -f then
    -(lowerOf none i) else f) n f = f :=
  loop_id (fun i a => if_neg (by simp only [lowerOf, Option.getD_none]; exact fun h => lt_irrefl _ h.1)) _ _

theorem initialFar_absent (s : QPB K) (lbNew ubNew : Option (Nat → K)) :
    s.initialFar lbNew ubNew = s.initialFar (some (lowerOf lbNew)) (some (upperOf ubNew)) := by
  unfold initialFar
  dsimp only
  cases lbNew with
  | none =>
    rw [raiseLower_absent]
    cases ubNew with
    | none => rw [raiseUpper_absent]
    | some u => rfl
  | some l =>
    cases ubNew with
    | none => rw [raiseUpper_absent]; rfl
    | some u => rfl

theorem lower_absent {v : K} (h : v < INFTY) (lbNew : Option (Nat → K)) (i : Nat) :
    farLower v lbNew i = farLower v (some (lowerOf lbNew)) i := by
  cases lbNew with
  | none => exact (max_eq_left (show -INFTY ≤ -v by linarith)).symm
  | some l => rfl

theorem upper_absent {v : K} (h : v < INFTY) (ubNew : Option (Nat → K)) (i : Nat) :
    farUpper v ubNew i = farUpper v (some (upperOf ubNew)) i := by
  cases ubNew with
  | none => exact (min_eq_left (show v ≤ INFTY from h.le)).symm
  | some u => rfl

theorem near_lower {v : K} (h : v < INFTY) (i : Nat) : -INFTY < farLower v none i := neg_lt_neg h

theorem near_upper {v : K} (h : v < INFTY) (i : Nat) : farUpper v none i < INFTY := h

/-- All far limits lie above `-INFTY` and below `INFTY` if the vector of the user's limits is absent. -/
def Near (n : Nat) (lbNew ubNew : Option (Nat → K)) (lf uf : Nat → K) : Prop :=
  (lbNew = none → ∀ i < n, -INFTY < lf i) ∧ (ubNew = none → ∀ i < n, uf i < INFTY)

theorem updateFarBounds_absent {s : QPB K} {cur : K} {n : Nat} (hv : ∀ i v, s.farVal cur n i = .ok v → v < INFTY) (lbNew ubNew : Option (Nat → K)) :
    ∀ (m i : Nat) (lf uf : Nat → K),
      updateFarBounds s cur n lbNew ubNew m i lf uf = updateFarBounds s cur n (some (lowerOf lbNew)) (some (upperOf ubNew)) m i lf uf ∧
      ∀ lf' uf', updateFarBounds s cur n lbNew ubNew m i lf uf = .ok (lf', uf') → Near i lbNew ubNew lf uf → Near (i + m) lbNew ubNew lf' uf' := by
  intro m
  induction m with
  | zero => intro i lf uf; exact ⟨rfl, fun lf' uf' e h => by cases e; exact h⟩
  | succ m ih =>
    intro i lf uf
    cases e : s.farVal cur n i with
    | ub e' =>
      unfold updateFarBounds
      rw [e]
      exact ⟨rfl, fun lf' uf' e => by rw [Res.bind_ub] at e; cases e⟩
    | ok v =>
      have hv := hv i v e
      rw [updateFarBounds_succ e, updateFarBounds_succ e, ← lower_absent hv, ← upper_absent hv]
      obtain ⟨h1, h2⟩ := ih (i+1) (updA lf i (farLower v lbNew i)) (updA uf i (farUpper v ubNew i))
      refine ⟨h1, fun lf' uf' e h => ?_⟩
      rw [show i + (m + 1) = i + 1 + m by omega]
      refine h2 lf' uf' e ⟨fun hl j hj => ?_, fun hu j hj => ?_⟩
      · by_cases hji : j = i
        · subst hji hl
          rw [updA_same]
          exact near_lower hv _
        · rw [updA_ne _ _ hji]; exact h.1 hl j (by omega)
      · by_cases hji : j = i
        · subst hji hu
          rw [updA_same]
          exact near_upper hv _
        · rw [updA_ne _ _ hji]; exact h.2 hu j (by omega)

theorem countLower_absent {n : Nat} {lf x : Nat → K} {tol : K} (h : ∀ i < n, -INFTY < lf i) :
    (List.range n).countP (fun i => true && decide (getAbs (lf i - x i) < tol)) =
    (List.range n).countP (fun i => decide (lf i > lowerOf none i) && decide (getAbs (lf i - x i) < tol)) := by
  refine List.countP_congr fun i hi => ?_
  have : decide (lf i > lowerOf (none : Option (Nat → K)) i) = true := decide_eq_true (h i (List.mem_range.1 hi))
  rw [this]

theorem countUpper_absent {n : Nat} {uf x : Nat → K} {tol : K} (h : ∀ i < n, uf i < INFTY) :
    (List.range n).countP (fun i => true && decide (getAbs (uf i - x i) < tol)) =
    (List.range n).countP (fun i => decide (uf i < upperOf none i) && decide (getAbs (uf i - x i) < tol)) := by
  refine List.countP_congr fun i hi => ?_
  have : decide (uf i < upperOf (none : Option (Nat → K)) i) = true := decide_eq_true (h i (List.mem_range.1 hi))
  rw [this]

theorem nActiveFar_absent {s : QPB K} {lbNew ubNew : Option (Nat → K)} {lf uf : Nat → K} {tol : K} (h : Near s.nV lbNew ubNew lf uf) :
    s.nActiveFar lbNew ubNew lf uf tol = s.nActiveFar (some (lowerOf lbNew)) (some (upperOf ubNew)) lf uf tol := by
  unfold nActiveFar
  congr 1
  · cases lbNew with
    | none => exact countLower_absent (h.1 rfl)
    | some l => rfl
  · cases ubNew with
    | none => exact countUpper_absent (h.2 rfl)
    | some u => rfl

/-- The far bound `far` stays below infinity when enlarged by the ramping factors, and so do all larger ones that are used. -/
def FarStays (s : QPB K) (far : K) : Prop :=
  ∀ k : Nat, far * s.options.growFarBounds ^ k < INFTY → far * s.options.growFarBounds ^ k * Props.maxRamp s < INFTY

theorem farVal_lt {s : QPB K} {cur : K} {n : Nat} (hc : 0 ≤ cur) (h0 : 0 ≤ s.ramp0) (h1 : 0 ≤ s.ramp1)
    (hn : s.options.enableRamping = true → 2 ≤ n) (h : cur * Props.maxRamp s < INFTY) (i : Nat) (v : K) (e : s.farVal cur n i = .ok v) : v < INFTY := by
  obtain ⟨f, F, e'⟩ := farVal_spec s cur i hn
  rw [e'] at e
  cases e
  exact (mul_le_mul_of_nonneg_left (Props.FarFactor.range F h0 h1).2 hc).trans_lt h

theorem farVal_plain {s : QPB K} {cur : K} {n : Nat} (hr : s.options.enableRamping = false) (h : cur < INFTY) (i : Nat) (v : K)
    (e : s.farVal cur n i = .ok v) : v < INFTY := by
  unfold farVal at e
  rw [if_neg (by rw [hr]; decide)] at e
  cases e
  exact h

theorem solveRegularisedQP_far {sq : K → K} {s : QPB K} {gNew : Nat → K} {lbNew ubNew : Option (Nat → K)} {nWSR : Int} {c : Option K}
    {p : Int} {o : Out K} (hp : p ≤ nWSR) (h : solveRegularisedQP sq s gNew lbNew ubNew nWSR c p = .ok o) :
    o.s.farOptions = s.farOptions ∧ o.nWSR ≤ nWSR := by
  by_cases hr : NotReady s
  · obtain ⟨c', e⟩ := solveRegularisedQP_notReady hr sq gNew lbNew ubNew nWSR c p
    rw [e] at h
    cases h
    exact ⟨rfl, le_refl _⟩
  · have S := solveRegularisedQP_cases hr hp h
    refine ⟨?_, S.upper⟩
    exact setting_far S.regVal S.nV

theorem bind_congr_of {α β : Type} {r : Res α} {f g : α → Res β} (h : ∀ o, r = .ok o → f o = g o) : (r >>= f) = (r >>= g) := by
  cases r with
  | ub e => rfl
  | ok o => exact h o rfl

theorem farLoop_absent (sq : K → K) (gNew : Nat → K) (lbNew ubNew : Option (Nat → K)) (nWSR : Int) (c : Option K) :
    ∀ (fuel : Nat) (s : QPB K) (far : K) (lf uf : Nat → K) (p : Int) (needed remaining : K), s.options.enableRamping = false →
      Near s.nV lbNew ubNew lf uf → p ≤ nWSR →
      farLoop sq gNew lbNew ubNew nWSR c fuel s far lf uf p needed remaining =
      farLoop sq gNew (some (lowerOf lbNew)) (some (upperOf ubNew)) nWSR c fuel s far lf uf p needed remaining := by
  intro fuel
  induction fuel with
  | zero => intro s far lf uf p needed remaining _ _ _; rfl
  | succ fuel ih =>
    intro s far lf uf p needed remaining hR hN hp
    unfold farLoop
    dsimp only
    refine bind_congr_of fun o e => ?_
    · skip
      obtain ⟨hd, hn⟩ := solveRegularisedQP_far hp e
      have e1 : o.s.nV = s.nV := congrArg (fun p => p.2.2.2.2.1) hd
      have e2 : o.s.options.enableRamping = s.options.enableRamping := congrArg (fun p => p.2.2.2.1) hd
      have hN' : Near o.s.nV lbNew ubNew lf uf := by rw [e1]; exact hN
      have next : ∀ (s' : QPB K) (lf uf : Nat → K) (n r : K), s'.options.enableRamping = false → ¬ far * o.s.options.growFarBounds ≥ INFTY →
          (updateFarBounds s' (far * o.s.options.growFarBounds) s'.nV lbNew ubNew s'.nV 0 lf uf >>= fun p =>
            farLoop sq gNew lbNew ubNew nWSR c fuel { s' with rampOffset := s'.rampOffset + 1 } (far * o.s.options.growFarBounds) p.1 p.2 o.nWSR n r) =
          (updateFarBounds s' (far * o.s.options.growFarBounds) s'.nV (some (lowerOf lbNew)) (some (upperOf ubNew)) s'.nV 0 lf uf >>= fun p =>
            farLoop sq gNew (some (lowerOf lbNew)) (some (upperOf ubNew)) nWSR c fuel
              { s' with rampOffset := s'.rampOffset + 1 } (far * o.s.options.growFarBounds) p.1 p.2 o.nWSR n r) := by
        intro s' lf uf n r hr' hlt
        obtain ⟨U1, U2⟩ := updateFarBounds_absent (n := s'.nV) (farVal_plain hr' (not_le.1 hlt)) lbNew ubNew s'.nV 0 lf uf
        rw [← U1]
        cases eu : updateFarBounds s' (far * o.s.options.growFarBounds) s'.nV lbNew ubNew s'.nV 0 lf uf with
        | ub e => rfl
        | ok p =>
          obtain ⟨lf', uf'⟩ := p
          simp only [Res.bind_ok]
          have := U2 lf' uf' eu ⟨fun _ i hi => absurd hi (by omega), fun _ i hi => absurd hi (by omega)⟩
          rw [Nat.zero_add] at this
          exact ih { s' with rampOffset := s'.rampOffset + 1 } _ lf' uf' _ _ _ hr' this hn
      split
      · split
        · rfl
        · rename_i h3
          exact next _ _ _ _ _ (e2.trans hR) h3
      · split
        · cases eq : cdiv (far * o.s.options.growFarBounds) o.s.options.growFarBounds with
          | ub e => rfl
          | ok q =>
            simp only [Res.bind_ok]
            rw [← nActiveFar_absent hN']
            split
            · rfl
            · split
              · rfl
              · rename_i h3
                exact next { o.s with status := QPS_HOMOTOPYQPSOLVED } _ _ _ _ (e2.trans hR) h3
        · rfl

theorem hotstartMain_absent {sq : K → K} {fuel : Nat} {s : QPB K} {gNew : Nat → K} {lbNew ubNew : Option (Nat → K)} {nWSR : Int}
    {c : Option K} {a : K} (hb : 0 ≤ nWSR) (hr : InRange s.nV lbNew ubNew) (hfar : s.options.enableFarBounds = true)
    (hR : s.options.enableRamping = false) (hi : s.options.initialFarBounds < INFTY) :
    hotstartMain sq fuel s gNew lbNew ubNew nWSR c a =
    hotstartMain sq fuel s gNew (some (lowerOf lbNew)) (some (upperOf ubNew)) nWSR c a := by
  unfold hotstartMain
  rw [← areBoundsConsistent_absent hr]
  split
  · rfl
  · have goal2 : ∀ (r1 : ReturnValue) (s1 : QPB K), s1.farOptions = s.farOptions →
        (if r1 ≠ SUCCESSFUL_RETURN then .ok ⟨r1, nWSR, c, s1⟩
        else if s1.options.enableFarBounds = false then
          solveRegularisedQP sq s1 gNew lbNew ubNew nWSR c 0
        else do
          let (lf, uf) ← updateFarBounds s1 (s1.initialFar lbNew ubNew) s1.nV lbNew ubNew s1.nV 0 (fun _ => 0) (fun _ => 0)
          let (o, needed) ← farLoop sq gNew lbNew ubNew nWSR c fuel s1 (s1.initialFar lbNew ubNew) lf uf 0 0 INFTY
          .ok { o with cputime := c.map fun _ => needed + a }) =
        (if r1 ≠ SUCCESSFUL_RETURN then .ok ⟨r1, nWSR, c, s1⟩
        else if s1.options.enableFarBounds = false then
          solveRegularisedQP sq s1 gNew (some (lowerOf lbNew)) (some (upperOf ubNew)) nWSR c 0
        else do
          let (lf, uf) ← updateFarBounds s1 (s1.initialFar (some (lowerOf lbNew)) (some (upperOf ubNew))) s1.nV (some (lowerOf lbNew)) (some (upperOf ubNew))
            s1.nV 0 (fun _ => 0) (fun _ => 0)
          let (o, needed) ← farLoop sq gNew (some (lowerOf lbNew)) (some (upperOf ubNew)) nWSR c fuel s1
            (s1.initialFar (some (lowerOf lbNew)) (some (upperOf ubNew))) lf uf 0 0 INFTY
          .ok { o with cputime := c.map fun _ => needed + a }) := by
      intro r1 s1 hd
      have e1 : s1.options.initialFarBounds = s.options.initialFarBounds := congrArg (fun p => p.1) hd
      have e2 : s1.options.enableFarBounds = s.options.enableFarBounds := congrArg (fun p => p.2.2.1) hd
      have e3 : s1.options.enableRamping = s.options.enableRamping := congrArg (fun p => p.2.2.2.1) hd
      split
      · rfl
      · rw [if_neg (by rw [e2, hfar]; decide), if_neg (by rw [e2, hfar]; decide), ← initialFar_absent]
        have hlt : s1.initialFar lbNew ubNew < INFTY := (initialFar_spec s1 lbNew ubNew).2.2.2 (by rw [e1]; exact hi)
        obtain ⟨U1, U2⟩ := updateFarBounds_absent (s := s1) (n := s1.nV) (farVal_plain (e3.trans hR) hlt) lbNew ubNew s1.nV 0 (fun _ => 0) (fun _ => 0)
        rw [← U1]
        cases eu : updateFarBounds s1 (s1.initialFar lbNew ubNew) s1.nV lbNew ubNew s1.nV 0 (fun _ => 0) (fun _ => 0) with
        | ub e => rfl
        | ok p =>
          obtain ⟨lf, uf⟩ := p
          simp only [Res.bind_ok]
          have := U2 lf uf eu ⟨fun _ i hi => absurd hi (by omega), fun _ i hi => absurd hi (by omega)⟩
          rw [Nat.zero_add] at this
          rw [farLoop_absent sq gNew lbNew ubNew nWSR c fuel s1 _ lf uf 0 0 INFTY (e3.trans hR) this hb]
    dsimp only
    split
    · cases e : setupInitialCholesky sq { s with count := s.count + 1 } with
      | ub e => rfl
      | ok b =>
        obtain ⟨r, s1⟩ := b
        have hd := setupInitialCholesky_far e
        simp only [Res.bind_ok]
        exact goal2 r s1 hd
    · exact goal2 SUCCESSFUL_RETURN { s with count := s.count + 1 } rfl

theorem hotstart_absent {sq : K → K} {fuel : Nat} {s : QPB K} {gNew : Nat → K} {lbNew ubNew : Option (Nat → K)} {nWSR : Int}
    {c : Option K} {guess : Guess} (hb : 0 ≤ nWSR) (hr : InRange s.nV lbNew ubNew) (hfar : s.options.enableFarBounds = true)
    (hR : s.options.enableRamping = false) (hi : s.options.initialFarBounds < INFTY) :
    hotstart sq fuel s gNew lbNew ubNew nWSR c guess =
    hotstart sq fuel s gNew (some (lowerOf lbNew)) (some (upperOf ubNew)) nWSR c guess := by
  have main : ∀ (s1 : QPB K) (c : Option K) (a : K), s1.farOptions = s.farOptions → hotstartMain sq fuel s1 gNew lbNew ubNew nWSR c a =
      hotstartMain sq fuel s1 gNew (some (lowerOf lbNew)) (some (upperOf ubNew)) nWSR c a := by
    intro s1 c a hd
    have e1 : s1.options.initialFarBounds = s.options.initialFarBounds := congrArg (fun p => p.1) hd
    have e2 : s1.options.enableFarBounds = s.options.enableFarBounds := congrArg (fun p => p.2.2.1) hd
    have e3 : s1.options.enableRamping = s.options.enableRamping := congrArg (fun p => p.2.2.2.1) hd
    have e4 : s1.nV = s.nV := congrArg (fun p => p.2.2.2.2.1) hd
    exact hotstartMain_absent hb (by rw [e4]; exact hr) (e2.trans hfar) (e3.trans hR) (by rw [e1]; exact hi)
  unfold hotstart
  split
  · rfl
  · cases guess with
    | null => exact main _ _ _ rfl
    | self =>
      simp only [Res.bind_ok, ne_eq, not_true_eq_false, if_false]
      refine main _ _ _ ?_
      obtain ⟨k, e⟩ := startClock_keep s c
      obtain ⟨k', e'⟩ := stopClock_keep ({ (s.startClock c).2 with status := QPS_AUXILIARYQPSOLVED } : QPB K) c (s.startClock c).1
      rw [e', e]
      rfl
    | other w =>
      dsimp only
      cases e : setupAuxiliaryQP sq (s.startClock c).2 w with
      | ub e => rfl
      | ok b =>
        obtain ⟨r, s1⟩ := b
        simp only [Res.bind_ok]
        split
        · rfl
        · refine main _ _ _ ?_
          obtain ⟨k, e1⟩ := startClock_keep s c
          obtain ⟨k', e'⟩ := stopClock_keep ({ s1 with status := QPS_AUXILIARYQPSOLVED } : QPB K) c (s.startClock c).1
          rw [e']
          rw [e1] at e
          have h1 : s1.farOptions = s.farOptions := setupAuxiliaryQP_far (s := { s with now := k }) e
          exact h1

end QPB

namespace QPC

theorem areBoundsConsistent_absent {s : QPC K} {lbNew ubNew lbANew ubANew : Option (Nat → K)} (h : QPB.InRange s.nV lbNew ubNew)
    (hA : QPB.InRange s.nC lbANew ubANew) : s.areBoundsConsistent lbNew ubNew lbANew ubANew =
      s.areBoundsConsistent (some (QPB.lowerOf lbNew)) (some (QPB.upperOf ubNew)) (some (QPB.lowerOf lbANew)) (some (QPB.upperOf ubANew)) := by
  unfold areBoundsConsistent
  rw [QPB.areBoundsConsistent_absent h]
  congr 1
  cases lbANew with
  | none => exact QPB.consistent_absent hA (Or.inl rfl)
  | some l =>
    cases ubANew with
    | none => exact QPB.consistent_absent hA (Or.inr rfl)
    | some u => rfl

theorem initialFar_absent (s : QPC K) (lbNew ubNew lbANew ubANew : Option (Nat → K)) : s.initialFar lbNew ubNew lbANew ubANew =
    s.initialFar (some (QPB.lowerOf lbNew)) (some (QPB.upperOf ubNew)) (some (QPB.lowerOf lbANew)) (some (QPB.upperOf ubANew)) := by
  unfold initialFar
  dsimp only
  rw [QPB.initialFar_absent]
  cases lbANew with
  | none =>
    rw [QPB.raiseLower_absent]
    cases ubANew with
    | none => rw [QPB.raiseUpper_absent]
    | some u => rfl
  | some l =>
    cases ubANew with
    | none => rw [QPB.raiseUpper_absent]; rfl
    | some u => rfl

theorem farC_absent {s : QPC K} {cur : K} (hv : ∀ i v, s.toQPB.farVal cur (s.nV + s.nC) i = .ok v → v < INFTY) (lbNew ubNew : Option (Nat → K)) :
    ∀ (m i : Nat) (lf uf : Nat → K),
      farC s cur lbNew ubNew m i lf uf = farC s cur (some (QPB.lowerOf lbNew)) (some (QPB.upperOf ubNew)) m i lf uf ∧
      ∀ lf' uf', farC s cur lbNew ubNew m i lf uf = .ok (lf', uf') → QPB.Near i lbNew ubNew lf uf → QPB.Near (i + m) lbNew ubNew lf' uf' := by
  intro m
  induction m with
  | zero => intro i lf uf; exact ⟨rfl, fun lf' uf' e h => by cases e; exact h⟩
  | succ m ih =>
    intro i lf uf
    cases e : s.toQPB.farVal cur (s.nV + s.nC) (s.nV + i) with
    | ub e' =>
      unfold farC
      rw [e]
      exact ⟨rfl, fun lf' uf' e => by rw [Res.bind_ub] at e; cases e⟩
    | ok v =>
      have hv := hv _ v e
      rw [farC_succ e, farC_succ e, ← QPB.lower_absent hv, ← QPB.upper_absent hv]
      obtain ⟨h1, h2⟩ := ih (i+1) (updA lf i (QPB.farLower v lbNew i)) (updA uf i (QPB.farUpper v ubNew i))
      refine ⟨h1, fun lf' uf' e h => ?_⟩
      rw [show i + (m + 1) = i + 1 + m by omega]
      refine h2 lf' uf' e ⟨fun hl j hj => ?_, fun hu j hj => ?_⟩
      · by_cases hji : j = i
        · subst hji hl
          rw [updA_same]
          exact QPB.near_lower hv _
        · rw [updA_ne _ _ hji]; exact h.1 hl j (by omega)
      · by_cases hji : j = i
        · subst hji hu
          rw [updA_same]
          exact QPB.near_upper hv _
        · rw [updA_ne _ _ hji]; exact h.2 hu j (by omega)

/-- The far limits are finite where vectors of limits are absent. -/
def Nears (s : QPC K) (lbNew ubNew lbANew ubANew : Option (Nat → K)) (f : Far K) : Prop :=
  QPB.Near s.nV lbNew ubNew f.lb f.ub ∧ QPB.Near s.nC lbANew ubANew f.lbA f.ubA

theorem updateFarBounds_absent {s : QPC K} {cur : K} (hv : ∀ i v, s.toQPB.farVal cur (s.nV + s.nC) i = .ok v → v < INFTY)
    (lbNew ubNew lbANew ubANew : Option (Nat → K)) (f : Far K) :
    updateFarBounds s cur lbNew ubNew lbANew ubANew f =
      updateFarBounds s cur (some (QPB.lowerOf lbNew)) (some (QPB.upperOf ubNew)) (some (QPB.lowerOf lbANew)) (some (QPB.upperOf ubANew)) f ∧
    ∀ f', updateFarBounds s cur lbNew ubNew lbANew ubANew f = .ok f' → Nears s lbNew ubNew lbANew ubANew f' := by
  obtain ⟨a1, a2⟩ := QPB.updateFarBounds_absent hv lbNew ubNew s.nV 0 f.lb f.ub
  obtain ⟨b1, b2⟩ := farC_absent hv lbANew ubANew s.nC 0 f.lbA f.ubA
  unfold updateFarBounds
  refine ⟨by rw [a1, b1], fun f' e => ?_⟩
  obtain ⟨⟨l, u⟩, e1, e⟩ := Res.bind_eq_ok.1 e
  obtain ⟨⟨lA, uA⟩, e2, e⟩ := Res.bind_eq_ok.1 e
  cases e
  have z : ∀ (a b : Option (Nat → K)) (p q : Nat → K), QPB.Near 0 a b p q := fun a b p q => ⟨fun _ i hi => absurd hi (by omega), fun _ i hi => absurd hi (by omega)⟩
  have A := a2 _ _ e1 (z _ _ _ _)
  have B := b2 _ _ e2 (z _ _ _ _)
  rw [Nat.zero_add] at A B
  exact ⟨A, B⟩

theorem nActiveFar_absent {s : QPC K} {lbNew ubNew lbANew ubANew : Option (Nat → K)} {f : Far K} {tol : K}
    (h : Nears s lbNew ubNew lbANew ubANew f) : s.nActiveFar lbNew ubNew lbANew ubANew f tol =
      s.nActiveFar (some (QPB.lowerOf lbNew)) (some (QPB.upperOf ubNew)) (some (QPB.lowerOf lbANew)) (some (QPB.upperOf ubANew)) f tol := by
  unfold nActiveFar
  rw [QPB.nActiveFar_absent h.1]
  congr 1
  · congr 1
    cases lbANew with
    | none => exact QPB.countLower_absent (h.2.1 rfl)
    | some l => rfl
  · cases ubANew with
    | none => exact QPB.countUpper_absent (h.2.2 rfl)
    | some u => rfl

/-- What the far bound loop needs to know about the object. -/
structure Ramps (s : QPC K) : Prop where
  grow : 1 ≤ s.options.growFarBounds
  ramp0 : 0 ≤ s.ramp0
  ramp1 : 0 ≤ s.ramp1
  size : s.options.enableRamping = true → 2 ≤ s.nV + s.nC

theorem Ramps.of_dims {s s' : QPC K} (h : Ramps s) (e : s'.dims = s.dims) : Ramps s' := by
  have e1 : s'.nV = s.nV := congrArg (fun p => p.1) e
  have e2 : s'.nC = s.nC := congrArg (fun p => p.2.1) e
  have e3 : s'.options.growFarBounds = s.options.growFarBounds := congrArg (fun p => p.2.2.2.1) e
  have e4 : s'.options.enableRamping = s.options.enableRamping := congrArg (fun p => p.2.2.2.2.2.1) e
  have e5 : s'.ramp0 = s.ramp0 := congrArg (fun p => p.2.2.2.2.2.2.1) e
  have e6 : s'.ramp1 = s.ramp1 := congrArg (fun p => p.2.2.2.2.2.2.2) e
  exact ⟨by rw [e3]; exact h.grow, by rw [e5]; exact h.ramp0, by rw [e6]; exact h.ramp1, by rw [e4, e1, e2]; exact h.size⟩

theorem lasting_dims {s s' : QPC K} (h : s'.lasting = s.lasting) : s'.dims = s.dims :=
  congrArg (fun p => (p.1, p.2.1, p.2.2.2.2.2.2.2.2.1.initialFarBounds, p.2.2.2.2.2.2.2.2.1.growFarBounds,
    p.2.2.2.2.2.2.2.2.1.enableFarBounds, p.2.2.2.2.2.2.2.2.1.enableRamping, p.2.2.2.2.2.2.2.2.2.1, p.2.2.2.2.2.2.2.2.2.2)) h

theorem farStays_dims {s s' : QPC K} {far : K} (h : QPB.FarStays s.toQPB far) (e : s'.dims = s.dims) : QPB.FarStays s'.toQPB far := by
  have e3 : s'.options.growFarBounds = s.options.growFarBounds := congrArg (fun p => p.2.2.2.1) e
  have e4 : s'.options.enableRamping = s.options.enableRamping := congrArg (fun p => p.2.2.2.2.2.1) e
  have e5 : s'.ramp0 = s.ramp0 := congrArg (fun p => p.2.2.2.2.2.2.1) e
  have e6 : s'.ramp1 = s.ramp1 := congrArg (fun p => p.2.2.2.2.2.2.2) e
  unfold QPB.FarStays Props.maxRamp at *
  rw [e3, e4, e5, e6]
  exact h

theorem solveRegularisedQP_dims {sq : K → K} {s : QPC K} {gNew : Nat → K} {lbNew ubNew lbANew ubANew : Option (Nat → K)} {nWSR : Int}
    {c : Option K} {p : Int} {o : OutC K} (hp : p ≤ nWSR)
    (h : solveRegularisedQP sq s gNew lbNew ubNew lbANew ubANew nWSR c p = .ok o) : o.s.dims = s.dims ∧ o.nWSR ≤ nWSR := by
  by_cases hr : QPB.NotReady s.toQPB
  · obtain ⟨c', e⟩ := solveRegularisedQP_notReady hr sq gNew lbNew ubNew lbANew ubANew nWSR c p
    rw [e] at h
    cases h
    exact ⟨rfl, le_rfl⟩
  · have S := solveRegularisedQP_cases hr hp h
    exact ⟨lasting_dims S.lasting, S.upper⟩

theorem farLoop_absent (sq : K → K) (gNew : Nat → K) (lbNew ubNew lbANew ubANew : Option (Nat → K)) (nWSR : Int) (c : Option K) :
    ∀ (fuel : Nat) (s : QPC K) (far : K) (f : Far K) (p : Int) (needed remaining : K), Ramps s → 0 < far → QPB.FarStays s.toQPB far →
      Nears s lbNew ubNew lbANew ubANew f → p ≤ nWSR →
      farLoop sq gNew lbNew ubNew lbANew ubANew nWSR c fuel s far f p needed remaining =
      farLoop sq gNew (some (QPB.lowerOf lbNew)) (some (QPB.upperOf ubNew)) (some (QPB.lowerOf lbANew)) (some (QPB.upperOf ubANew))
        nWSR c fuel s far f p needed remaining := by
  intro fuel
  induction fuel with
  | zero => intro s far f p needed remaining _ _ _ _ _; rfl
  | succ fuel ih =>
    intro s far f p needed remaining hR hf hS hN hp
    unfold farLoop
    cases e : solveRegularisedQP sq s gNew (some f.lb) (some f.ub) (some f.lbA) (some f.ubA) nWSR (c.map fun c => c - needed) p with
    | ub e => rfl
    | ok o =>
      simp only [Res.bind_ok]
      obtain ⟨hd, hn⟩ := solveRegularisedQP_dims hp e
      have e1 : o.s.nV = s.nV := congrArg (fun p => p.1) hd
      have e2 : o.s.nC = s.nC := congrArg (fun p => p.2.1) hd
      have hg : o.s.options.growFarBounds = s.options.growFarBounds := congrArg (fun p => p.2.2.2.1) hd
      have hpos : 0 < far * o.s.options.growFarBounds := by rw [hg]; exact mul_pos hf (lt_of_lt_of_le one_pos hR.grow)
      have hN' : Nears o.s lbNew ubNew lbANew ubANew f := by unfold Nears; rw [e1, e2]; exact hN
      have hS' : QPB.FarStays s.toQPB (far * o.s.options.growFarBounds) := by
        intro k hk
        have := hS (k+1)
        rw [pow_succ', ← mul_assoc, ← hg] at this
        rw [← hg] at hk ⊢
        exact this hk
      have next : ∀ (s' : QPC K) (f : Far K) (n r : K), s'.dims = s.dims → ¬ far * o.s.options.growFarBounds ≥ INFTY →
          (updateFarBounds s' (far * o.s.options.growFarBounds) lbNew ubNew lbANew ubANew f >>= fun f =>
            farLoop sq gNew lbNew ubNew lbANew ubANew nWSR c fuel { s' with rampOffset := s'.rampOffset + 1 } (far * o.s.options.growFarBounds) f o.nWSR n r) =
          (updateFarBounds s' (far * o.s.options.growFarBounds) (some (QPB.lowerOf lbNew)) (some (QPB.upperOf ubNew)) (some (QPB.lowerOf lbANew))
              (some (QPB.upperOf ubANew)) f >>= fun f =>
            farLoop sq gNew (some (QPB.lowerOf lbNew)) (some (QPB.upperOf ubNew)) (some (QPB.lowerOf lbANew)) (some (QPB.upperOf ubANew)) nWSR c fuel
              { s' with rampOffset := s'.rampOffset + 1 } (far * o.s.options.growFarBounds) f o.nWSR n r) := by
        intro s' f n r hd' hlt
        have hR' := hR.of_dims hd'
        have hlt' := hS' 0
        rw [pow_zero, mul_one] at hlt'
        have hm := farStays_dims hS' hd' 0
        rw [pow_zero, mul_one] at hm
        have hv := QPB.farVal_lt (s := s'.toQPB) (n := s'.nV + s'.nC) hpos.le hR'.ramp0 hR'.ramp1 hR'.size (hm (not_le.1 hlt))
        obtain ⟨U1, U2⟩ := updateFarBounds_absent hv lbNew ubNew lbANew ubANew f
        rw [← U1]
        cases eu : updateFarBounds s' (far * o.s.options.growFarBounds) lbNew ubNew lbANew ubANew f with
        | ub e => rfl
        | ok f' =>
          simp only [Res.bind_ok]
          exact ih { s' with rampOffset := s'.rampOffset + 1 } _ f' _ _ _ (hR'.of_dims rfl) hpos (farStays_dims (s' := { s' with rampOffset := s'.rampOffset + 1 }) hS' hd')
            (U2 f' eu) hn
      split
      · split
        · rfl
        · rename_i h3
          exact next _ _ _ _ hd h3
      · split
        · cases eq : cdiv (far * o.s.options.growFarBounds) o.s.options.growFarBounds with
          | ub e => rfl
          | ok q =>
            simp only [Res.bind_ok]
            rw [← nActiveFar_absent hN']
            split
            · rfl
            · split
              · rfl
              · rename_i h3
                exact next { o.s with status := QPS_HOMOTOPYQPSOLVED } _ _ _ hd h3
        · rfl

theorem hotstartMain_absent {sq : K → K} {fuel : Nat} {s : QPC K} {gNew : Nat → K} {lbNew ubNew lbANew ubANew : Option (Nat → K)} {nWSR : Int}
    {c : Option K} {a : K} (hb : 0 ≤ nWSR) (hr : QPB.InRange s.nV lbNew ubNew) (hrA : QPB.InRange s.nC lbANew ubANew)
    (hfar : s.options.enableFarBounds = true) (hi : 0 < s.options.initialFarBounds) (hi' : s.options.initialFarBounds < INFTY) (hR : Ramps s)
    (hS : QPB.FarStays s.toQPB (s.initialFar lbNew ubNew lbANew ubANew)) :
    hotstartMain sq fuel s gNew lbNew ubNew lbANew ubANew nWSR c a =
    hotstartMain sq fuel s gNew (some (QPB.lowerOf lbNew)) (some (QPB.upperOf ubNew)) (some (QPB.lowerOf lbANew)) (some (QPB.upperOf ubANew)) nWSR c a := by
  unfold hotstartMain
  rw [← areBoundsConsistent_absent hr hrA]
  split
  · rfl
  · have goal2 : ∀ (r1 : ReturnValue) (s1 : QPC K), s1.dims = s.dims →
        (if r1 ≠ SUCCESSFUL_RETURN then .ok ⟨r1, nWSR, c, s1⟩
        else if s1.options.enableFarBounds = false then
          solveRegularisedQP sq s1 gNew lbNew ubNew lbANew ubANew nWSR c 0
        else do
          let f ← updateFarBounds s1 (s1.initialFar lbNew ubNew lbANew ubANew) lbNew ubNew lbANew ubANew
            ⟨fun _ => 0, fun _ => 0, fun _ => 0, fun _ => 0⟩
          let (o, needed) ← farLoop sq gNew lbNew ubNew lbANew ubANew nWSR c fuel s1 (s1.initialFar lbNew ubNew lbANew ubANew) f 0 0 INFTY
          .ok { o with cputime := c.map fun _ => needed + a }) =
        (if r1 ≠ SUCCESSFUL_RETURN then .ok ⟨r1, nWSR, c, s1⟩
        else if s1.options.enableFarBounds = false then
          solveRegularisedQP sq s1 gNew (some (QPB.lowerOf lbNew)) (some (QPB.upperOf ubNew)) (some (QPB.lowerOf lbANew)) (some (QPB.upperOf ubANew)) nWSR c 0
        else do
          let f ← updateFarBounds s1 (s1.initialFar (some (QPB.lowerOf lbNew)) (some (QPB.upperOf ubNew)) (some (QPB.lowerOf lbANew)) (some (QPB.upperOf ubANew)))
            (some (QPB.lowerOf lbNew)) (some (QPB.upperOf ubNew)) (some (QPB.lowerOf lbANew)) (some (QPB.upperOf ubANew))
            ⟨fun _ => 0, fun _ => 0, fun _ => 0, fun _ => 0⟩
          let (o, needed) ← farLoop sq gNew (some (QPB.lowerOf lbNew)) (some (QPB.upperOf ubNew)) (some (QPB.lowerOf lbANew)) (some (QPB.upperOf ubANew))
            nWSR c fuel s1 (s1.initialFar (some (QPB.lowerOf lbNew)) (some (QPB.upperOf ubNew)) (some (QPB.lowerOf lbANew)) (some (QPB.upperOf ubANew))) f 0 0 INFTY
          .ok { o with cputime := c.map fun _ => needed + a }) := by
      intro r1 s1 hd
      have e1 : s1.options.initialFarBounds = s.options.initialFarBounds := congrArg (fun p => p.2.2.1) hd
      have e2 : s1.options.enableFarBounds = s.options.enableFarBounds := congrArg (fun p => p.2.2.2.2.1) hd
      have eI : s1.initialFar lbNew ubNew lbANew ubANew = s.initialFar lbNew ubNew lbANew ubANew := by
        have e3 : s1.nV = s.nV := congrArg (fun p => p.1) hd
        have e4 : s1.nC = s.nC := congrArg (fun p => p.2.1) hd
        unfold initialFar QPB.initialFar
        rw [e1, e3, e4]
      split
      · rfl
      · rw [if_neg (by rw [e2, hfar]; decide), if_neg (by rw [e2, hfar]; decide)]
        rw [← initialFar_absent, eI]
        have hpos : 0 < s.initialFar lbNew ubNew lbANew ubANew := hi.trans_le (initialFar_ge _ _ _ _ _)
        have hlt : s.initialFar lbNew ubNew lbANew ubANew < INFTY := (initialFar_spec s lbNew ubNew lbANew ubANew).2.2.2 hi'
        have hR' := hR.of_dims hd
        have hm := farStays_dims hS hd 0
        rw [pow_zero, mul_one] at hm
        have hv := QPB.farVal_lt (s := s1.toQPB) (n := s1.nV + s1.nC) hpos.le hR'.ramp0 hR'.ramp1 hR'.size (hm hlt)
        obtain ⟨U1, U2⟩ := updateFarBounds_absent hv lbNew ubNew lbANew ubANew ⟨fun _ => 0, fun _ => 0, fun _ => 0, fun _ => 0⟩
        rw [← U1]
        cases eu : updateFarBounds s1 (s.initialFar lbNew ubNew lbANew ubANew) lbNew ubNew lbANew ubANew ⟨fun _ => 0, fun _ => 0, fun _ => 0, fun _ => 0⟩ with
        | ub e => rfl
        | ok f =>
          simp only [Res.bind_ok]
          rw [farLoop_absent sq gNew lbNew ubNew lbANew ubANew nWSR c fuel s1 _ f 0 0 INFTY hR' hpos (farStays_dims hS hd) (U2 f eu) hb]
    dsimp only
    split
    · cases e : setupInitialCholesky sq { s with count := s.count + 1 } with
      | ub e => rfl
      | ok b =>
        obtain ⟨r, s1⟩ := b
        obtain ⟨⟨H, v, R, Q, t, e, hc, es⟩, -⟩ := setupInitialCholesky_fields e
        simp only [Res.bind_ok]
        refine goal2 r s1 ?_
        rw [es]
        rfl
    · exact goal2 SUCCESSFUL_RETURN { s with count := s.count + 1 } rfl

theorem hotstart_absent {sq : K → K} {fuel : Nat} {s : QPC K} {gNew : Nat → K} {lbNew ubNew lbANew ubANew : Option (Nat → K)} {nWSR : Int}
    {c : Option K} {gB gC : QPB.Guess} (hb : 0 ≤ nWSR) (hr : QPB.InRange s.nV lbNew ubNew) (hrA : QPB.InRange s.nC lbANew ubANew)
    (hfar : s.options.enableFarBounds = true) (hi : 0 < s.options.initialFarBounds) (hi' : s.options.initialFarBounds < INFTY) (hR : Ramps s)
    (hS : QPB.FarStays s.toQPB (s.initialFar lbNew ubNew lbANew ubANew)) :
    hotstart sq fuel s gNew lbNew ubNew lbANew ubANew nWSR c gB gC =
    hotstart sq fuel s gNew (some (QPB.lowerOf lbNew)) (some (QPB.upperOf ubNew)) (some (QPB.lowerOf lbANew)) (some (QPB.upperOf ubANew)) nWSR c gB gC := by
  have main : ∀ (s1 : QPC K) (c : Option K) (a : K), s1.dims = s.dims → hotstartMain sq fuel s1 gNew lbNew ubNew lbANew ubANew nWSR c a =
      hotstartMain sq fuel s1 gNew (some (QPB.lowerOf lbNew)) (some (QPB.upperOf ubNew)) (some (QPB.lowerOf lbANew)) (some (QPB.upperOf ubANew)) nWSR c a := by
    intro s1 c a hd
    have e1 : s1.options.initialFarBounds = s.options.initialFarBounds := congrArg (fun p => p.2.2.1) hd
    have e2 : s1.options.enableFarBounds = s.options.enableFarBounds := congrArg (fun p => p.2.2.2.2.1) hd
    have e3 : s1.nV = s.nV := congrArg (fun p => p.1) hd
    have e4 : s1.nC = s.nC := congrArg (fun p => p.2.1) hd
    have eI : s1.initialFar lbNew ubNew lbANew ubANew = s.initialFar lbNew ubNew lbANew ubANew := by
      unfold initialFar QPB.initialFar
      rw [e1, e3, e4]
    exact hotstartMain_absent hb (by rw [e3]; exact hr) (by rw [e4]; exact hrA) (by rw [e2]; exact hfar) (by rw [e1]; exact hi) (by rw [e1]; exact hi')
      (hR.of_dims hd) (by rw [eI]; exact farStays_dims hS hd)
  have guessed : ∀ gB gC : Option WS, (do
      let p := s.toQPB.startClock c
      let (r, s) ← setupAuxiliaryQP sq { s with toQPB := p.2 } gB gC
      if r ≠ SUCCESSFUL_RETURN then Res.ok (⟨RET_SETUP_AUXILIARYQP_FAILED, nWSR, c, s⟩ : OutC K) else
      let s := { s with status := QPS_AUXILIARYQPSOLVED }
      let q := s.toQPB.stopClock c p.1
      let auxTime := q.1.getD 0
      hotstartMain sq fuel { s with toQPB := q.2 } gNew lbNew ubNew lbANew ubANew nWSR (c.map fun c => c - auxTime) auxTime) = (do
      let p := s.toQPB.startClock c
      let (r, s) ← setupAuxiliaryQP sq { s with toQPB := p.2 } gB gC
      if r ≠ SUCCESSFUL_RETURN then Res.ok (⟨RET_SETUP_AUXILIARYQP_FAILED, nWSR, c, s⟩ : OutC K) else
      let s := { s with status := QPS_AUXILIARYQPSOLVED }
      let q := s.toQPB.stopClock c p.1
      let auxTime := q.1.getD 0
      hotstartMain sq fuel { s with toQPB := q.2 } gNew (some (QPB.lowerOf lbNew)) (some (QPB.upperOf ubNew)) (some (QPB.lowerOf lbANew))
        (some (QPB.upperOf ubANew)) nWSR (c.map fun c => c - auxTime) auxTime) := by
    intro gB gC
    dsimp only
    cases e : setupAuxiliaryQP sq { s with toQPB := (s.toQPB.startClock c).2 } gB gC with
    | ub e => rfl
    | ok b =>
      obtain ⟨r, s1⟩ := b
      have hd := setupAuxiliaryQP_dims e
      obtain ⟨k, ek⟩ := startClock_fields s c
      rw [ek] at hd
      have hd : s1.dims = s.dims := hd
      simp only [Res.bind_ok]
      split
      · rfl
      · refine main _ _ _ ?_
        obtain ⟨k', e'⟩ := QPB.stopClock_keep ({ s1 with status := QPS_AUXILIARYQPSOLVED } : QPC K).toQPB c (s.toQPB.startClock c).1
        rw [e']
        exact hd
  unfold hotstart
  split
  · rfl
  · cases gB with
    | null =>
      cases gC with
      | null => exact main _ _ _ rfl
      | self => exact guessed _ _
      | other w => exact guessed _ _
    | self => exact guessed _ _
    | other w => exact guessed _ _

end QPC
end QpOASES
