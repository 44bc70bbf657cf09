import Verif.Proofs.QPCSession

/-!
Deciding by evaluation that a run of the solver for general constraints meets the hypotheses of its specification.
-/
namespace QpOASES
open Finset Props Spec SubjectToStatus SubjectToType ReturnValue HessianType QProblemStatus
open QPC (Sweep sweep sweepStep removeStep restoreStep boundSweepStep removeBoundStep)
open QPB (lowerOf upperOf)

set_option linter.unusedSectionVars false

/-! ### quantifiers over results -/

section
variable {α β γ : Type}

instance decSome (o : Option α) (P : α → Prop) [∀ a, Decidable (P a)] : Decidable (∀ a, o = some a → P a) :=
  match o with
  | none => isTrue (fun _ h => by cases h)
  | some a => if h : P a then isTrue (fun _ e => by cases e; exact h) else isFalse (fun hh => h (hh a rfl))

instance decOk (r : Res α) (P : α → Prop) [∀ a, Decidable (P a)] : Decidable (∀ a, r = .ok a → P a) :=
  match r with
  | .ub _ => isTrue (fun _ h => by cases h)
  | .ok a => if h : P a then isTrue (fun _ e => by cases e; exact h) else isFalse (fun hh => h (hh a rfl))

instance decOk2 (r : Res (α × β)) (P : α → β → Prop) [∀ a b, Decidable (P a b)] : Decidable (∀ a b, r = .ok (a, b) → P a b) :=
  match r with
  | .ub _ => isTrue (fun _ _ h => by cases h)
  | .ok (a, b) => if h : P a b then isTrue (fun _ _ e => by cases e; exact h) else isFalse (fun hh => h (hh a b rfl))

instance decOkSome2 (r : Res (Option (α × β))) (P : α → β → Prop) [∀ a b, Decidable (P a b)] :
    Decidable (∀ a b, r = .ok (some (a, b)) → P a b) :=
  match r with
  | .ub _ => isTrue (fun _ _ h => by cases h)
  | .ok none => isTrue (fun _ _ h => by cases h)
  | .ok (some (a, b)) => if h : P a b then isTrue (fun _ _ e => by cases e; exact h) else isFalse (fun hh => h (hh a b rfl))

instance decOkOk (r : Res (Except γ α)) (P : α → Prop) [∀ a, Decidable (P a)] : Decidable (∀ a, r = .ok (.ok a) → P a) :=
  match r with
  | .ub _ => isTrue (fun _ h => by cases h)
  | .ok (.error _) => isTrue (fun _ h => by cases h)
  | .ok (.ok a) => if h : P a then isTrue (fun _ e => by cases e; exact h) else isFalse (fun hh => h (hh a rfl))

instance decOkAt [DecidableEq γ] (r : Res (γ × α)) (c : γ) (P : α → Prop) [∀ a, Decidable (P a)] : Decidable (∀ a, r = .ok (c, a) → P a) :=
  match r with
  | .ub _ => isTrue (fun _ h => by cases h)
  | .ok (c', a) =>
    if hc : c' = c then
      if h : P a then isTrue (fun _ e => by cases e; exact h) else isFalse (fun hh => h (hh a (by rw [hc])))
    else isTrue (fun _ e => by cases e; exact absurd rfl hc)

instance decOkBool (r : Res Bool) (b : Bool) : Decidable (r = .ok b) :=
  match r with
  | .ub _ => isFalse (fun h => by cases h)
  | .ok b' => if h : b' = b then isTrue (by rw [h]) else isFalse (fun e => by cases e; exact h rfl)

end

variable {K : Type} [Field K] [LinearOrder K] [IsStrictOrderedRing K]

instance (sq : K → K) (x y : K) : Decidable (Clean sq x y) := by unfold Clean; infer_instance
instance (sq : K → K) (free : Nat → Bool) (upd : Bool) (nZ : Nat) (t : Sweep K) : Decidable (CleanSweep sq free upd nZ t) := by
  unfold CleanSweep; infer_instance
instance (sq : K → K) (nZ : Nat) (R : Nat → Nat → K) : Decidable (CleanRestore sq nZ R) := by unfold CleanRestore; infer_instance
instance (sq : K → K) (free : Nat → Bool) (n m tcol : Nat) (t : (Nat → K) × (Nat → Nat → K) × (Nat → Nat → K) × (Nat → K)) :
    Decidable (CleanBound sq free n m tcol t) := by unfold CleanBound; infer_instance
instance (sq : K → K) (free : Nat → Bool) (n m tcol k : Nat) (t : (Nat → Nat → K) × (Nat → Nat → K)) :
    Decidable (CleanRemove sq free n m tcol k t) :=
  decidable_of_iff (∀ i < m - (k + 1),
    Clean sq ((loop (fun d => removeStep sq free m (n-m) tcol (k + d)) i t).1 (k + i) (tcol + 1 + (m - 2 - (k + i))))
      ((loop (fun d => removeStep sq free m (n-m) tcol (k + d)) i t).1 (k + i) (tcol + (m - 2 - (k + i)))))
    ⟨fun h i hi => h i (by omega), fun h i hi => h i (by omega)⟩
instance (sq : K → K) (free : Nat → Bool) (n m tcol : Nat) (t : (Nat → Nat → K) × (Nat → K) × (Nat → Nat → K)) :
    Decidable (CleanFree sq free n m tcol t) := by unfold CleanFree; infer_instance

instance decPivots (sq : K → K) (n lda : Nat) : (m i : Nat) → (a : Nat → K) → Decidable (PivotsOK sq n lda m i a)
  | 0, _, _ => isTrue trivial
  | m+1, i, a => by
    unfold PivotsOK
    dsimp only
    have := decPivots sq n lda m (i+1)
    infer_instance

namespace QPC
variable (sq : K → K) (s : QPC K)

instance (k : Nat) (upd : Bool) : Decidable (s.CleanAddC sq k upd) := by unfold CleanAddC; dsimp only; infer_instance
instance (k : Nat) (upd : Bool) : Decidable (s.CleanAddB sq k upd) := by unfold CleanAddB; dsimp only; infer_instance
instance (k : Nat) : Decidable (s.CleanRemC sq k) := by unfold CleanRemC; infer_instance
instance (k : Nat) : Decidable (s.CleanRemB sq k) := by unfold CleanRemB; infer_instance
instance (f : Bool) (r : K) : Decidable (RhoOK sq s f r) := by unfold RhoOK; infer_instance
instance (k : Nat) (f : Bool) : Decidable (s.CleanRemoveC sq k f) := by unfold CleanRemoveC; infer_instance
instance (k : Nat) (f : Bool) : Decidable (s.CleanRemoveB sq k f) := by unfold CleanRemoveB; infer_instance
instance (b : Bool) (k : Nat) : Decidable (s.Curved b k) := by unfold Curved; infer_instance
instance (k : Nat) : Decidable (CleanOutB sq s k) := by unfold CleanOutB; infer_instance
instance (k : Nat) : Decidable (CleanOutC sq s k) := by unfold CleanOutC; infer_instance
instance (eN eD num den : K) : Decidable (Seen eN eD num den) := by unfold Seen; infer_instance

theorem allSeen_iff (b : Bool) (k : Nat) (d : Dir K) : AllSeen s b k d ↔
    (∀ j < s.nFR, Seen s.options.epsNum s.options.epsDen (s.ub (s.fr j) - s.x (s.fr j)) (d.xFR j)) ∧
    (∀ j < s.nFR, Seen s.options.epsNum s.options.epsDen (s.x (s.fr j) - s.lb (s.fr j)) (-d.xFR j)) ∧
    (∀ j < s.nIAC, Seen s.options.epsNum s.options.epsDen (s.Axu (s.iac j)) (s.dirAx d (s.iac j))) ∧
    (∀ j < s.nIAC, Seen s.options.epsNum s.options.epsDen (s.Axl (s.iac j)) (-s.dirAx d (s.iac j))) ∧
    (b = true → s.bounds.getStatus k = ST_LOWER → Seen s.options.epsNum s.options.epsDen (s.ub k - s.x k) 1) ∧
    (b = true → s.bounds.getStatus k = ST_UPPER → Seen s.options.epsNum s.options.epsDen (s.x k - s.lb k) 1) ∧
    (b = false → s.cons.getStatus k = ST_LOWER → Seen s.options.epsNum s.options.epsDen (s.Axu k) 1) ∧
    (b = false → s.cons.getStatus k = ST_UPPER → Seen s.options.epsNum s.options.epsDen (s.Axl k) 1) :=
  ⟨fun h => ⟨h.1, h.2, h.3, h.4, h.5, h.6, h.7, h.8⟩, fun ⟨h1, h2, h3, h4, h5, h6, h7, h8⟩ => ⟨h1, h2, h3, h4, h5, h6, h7, h8⟩⟩

instance (b : Bool) (k : Nat) (d : Dir K) : Decidable (AllSeen s b k d) := decidable_of_iff' _ (allSeen_iff s b k d)
instance (c : Change) : Decidable (CleanEnter sq s c) := by unfold CleanEnter; infer_instance
instance (k : Nat) (c : Change) : Decidable (CleanSwapB sq s k c) := by unfold CleanSwapB; infer_instance
instance (k : Nat) (c : Change) : Decidable (CleanSwapC sq s k c) := by unfold CleanSwapC; infer_instance

instance : (c : Option Change) → Decidable (HasLimit s c)
  | none => isTrue trivial
  | some ⟨true, i, st⟩ => by cases st <;> (unfold HasLimit; infer_instance)
  | some ⟨false, i, st⟩ => by cases st <;> (unfold HasLimit; infer_instance)

instance (b : Bool) (k : Nat) : Decidable (NullClean sq s b k) := by unfold NullClean; infer_instance
instance (k : Nat) : Decidable (CleanLeaveB sq s k) := by unfold CleanLeaveB; infer_instance
instance (k : Nat) : Decidable (CleanLeaveC sq s k) := by unfold CleanLeaveC; infer_instance

theorem cleanResolve_iff (xiC xiB : Nat → K) : CleanResolve sq s xiC xiB ↔
    (∀ k < s.nAC, s.cons.type (s.ac k) ≠ ST_EQUALITY → QPB.DenOK s.options.epsDen (QPB.sg s.cons (s.ac k) (xiC k))) ∧
    (∀ k < s.nFX, s.bounds.type (s.fx k) ≠ ST_EQUALITY → QPB.DenOK s.options.epsDen (QPB.sg s.bounds (s.fx k) (xiB k))) ∧
    ∀ t1 bc, QPB.ratioTest s.cons (fun i => s.y (s.nV + s.ac i)) xiC s.options.epsNum s.options.epsDen s.cons.fixed 0
      s.options.maxDualJump none = .ok (t1, bc) →
      ∀ t2 bb, QPB.ratioTest s.bounds (fun i => s.y (s.fx i)) xiB s.options.epsNum s.options.epsDen s.bounds.fixed 0 t1 none = .ok (t2, bb) →
        (∀ k, bb = some k → s.CleanRemoveB sq k false) ∧ (bb = none → ∀ k, bc = some k → s.CleanRemoveC sq k false) := by
  constructor
  · rintro ⟨h1, h2, h3, h4⟩
    refine ⟨h1, h2, fun t1 bc e1 t2 bb e2 => ⟨?_, ?_⟩⟩
    · rintro k rfl; exact h3 _ _ _ _ e1 e2
    · rintro rfl k rfl; exact h4 _ _ _ e1 e2
  · rintro ⟨h1, h2, h3⟩
    exact ⟨h1, h2, fun t1 bc t2 k e1 e2 => (h3 _ _ e1 _ _ e2).1 k rfl, fun t1 k t2 e1 e2 => (h3 _ _ e1 _ _ e2).2 rfl k rfl⟩

instance (xiC xiB : Nat → K) : Decidable (CleanResolve sq s xiC xiB) := decidable_of_iff' _ (cleanResolve_iff sq s xiC xiB)

theorem cleanInC_iff (k : Nat) (st : SubjectToStatus) : CleanInC sq s k st ↔
    (s.checkLIConstraint k = .ok true → 0 < s.nZ) ∧
    (s.checkLIConstraint k = .ok false → ∀ j < s.nZ, ∑ r ∈ range s.nFR, s.A k (s.fr r) * s.Q (s.fr r) j = 0) ∧
    (s.checkLIConstraint k = .ok false → ∀ xiC,
      s.coeffC (fun i => sumTo (fun j => s.Q (s.fr j) (s.nZ + i) * (dirSign st * s.A k (s.fr j))) s.nFR) = some xiC →
      CleanResolve sq s xiC (fun i => dirSign st * s.A k (s.fx i) - sumTo (fun k => s.A (s.ac k) (s.fx i) * xiC k) s.nAC)) ∧
    (∀ s', ensureLIConstraint sq s k st = .ok (SUCCESSFUL_RETURN, s') → s'.CleanAddC sq k true) :=
  ⟨fun h => ⟨h.1, h.2, h.3, h.4⟩, fun h => ⟨h.1, h.2.1, h.2.2.1, h.2.2.2⟩⟩

instance (k : Nat) (st : SubjectToStatus) : Decidable (CleanInC sq s k st) := decidable_of_iff' _ (cleanInC_iff sq s k st)

theorem cleanInB_iff (k : Nat) (st : SubjectToStatus) : CleanInB sq s k st ↔
    (s.checkLIBound k = .ok true → 0 < s.nZ) ∧
    (s.checkLIBound k = .ok false → ∀ j < s.nZ, s.Q k j = 0) ∧
    (s.checkLIBound k = .ok false → ∀ xiC, s.coeffC (fun i => dirSign st * s.Q k (s.nZ + i)) = some xiC →
      CleanResolve sq s xiC (fun i => -sumTo (fun k => s.A (s.ac k) (s.fx i) * xiC k) s.nAC)) ∧
    (∀ s', ensureLIBound sq s k st = .ok (SUCCESSFUL_RETURN, s') → s'.CleanAddB sq k true) :=
  ⟨fun h => ⟨h.1, h.2, h.3, h.4⟩, fun h => ⟨h.1, h.2.1, h.2.2.1, h.2.2.2⟩⟩

instance (k : Nat) (st : SubjectToStatus) : Decidable (CleanInB sq s k st) := decidable_of_iff' _ (cleanInB_iff sq s k st)

instance : (c : Option Change) → Decidable (CleanChange sq s c)
  | none => isTrue trivial
  | some ⟨true, i, st⟩ => by cases st <;> (unfold CleanChange; infer_instance)
  | some ⟨false, i, st⟩ => by cases st <;> (unfold CleanChange; infer_instance)

theorem cleanChol_iff : CleanChol sq s ↔
    (s.general = true → s.nFX + s.nAC = 0 → ∀ j < s.nFR, ∀ i ∈ s.F, s.Q i j = if i = s.fr j then 1 else 0) ∧
    (s.general = true → ∀ H, s.H = some H → PivotsOK sq s.nZ s.nV s.nZ 0 (fun q => s.cholInput H (q % s.nV) (q / s.nV))) :=
  ⟨fun h => ⟨h.1, h.2⟩, fun h => ⟨h.1, h.2⟩⟩

instance : Decidable (CleanChol sq s) := decidable_of_iff' _ (cleanChol_iff sq s)

theorem noTiny_iff (h : Shift K) (d : Dir K) : NoTiny s h d ↔
    (∀ k < s.nAC, s.cons.type (s.ac k) ≠ ST_EQUALITY → QPB.DenOK s.options.epsDen (QPB.sg s.cons (s.ac k) (-d.yAC k))) ∧
    (∀ k < s.nFX, s.bounds.type (s.fx k) ≠ ST_EQUALITY → QPB.DenOK s.options.epsDen (QPB.sg s.bounds (s.fx k) (-d.yFX k))) ∧
    (s.cons.noLower = false → ∀ k < s.nIAC, QPB.DenOK s.options.epsDen (h.lbA (s.iac k) - s.dirAx d (s.iac k))) ∧
    (s.cons.noUpper = false → ∀ k < s.nIAC, QPB.DenOK s.options.epsDen (s.dirAx d (s.iac k) - h.ubA (s.iac k))) ∧
    (s.bounds.noLower = false → ∀ k < s.nFR, QPB.DenOK s.options.epsDen (h.lb (s.fr k) - d.xFR k)) ∧
    (s.bounds.noUpper = false → ∀ k < s.nFR, QPB.DenOK s.options.epsDen (d.xFR k - h.ub (s.fr k))) :=
  ⟨fun h => ⟨h.1, h.2, h.3, h.4, h.5, h.6⟩, fun h => ⟨h.1, h.2.1, h.2.2.1, h.2.2.2.1, h.2.2.2.2.1, h.2.2.2.2.2⟩⟩

instance (h : Shift K) (d : Dir K) : Decidable (NoTiny s h d) := decidable_of_iff' _ (noTiny_iff s h d)

theorem iterClean_iff (gNew : Nat → K) (lbNew ubNew lbANew ubANew : Option (Nat → K)) (iter : Int) :
    IterClean sq s gNew lbNew ubNew lbANew ubANew iter ↔
    (s.toQPB.deltaIsZero (s.dataShift gNew lbNew ubNew lbANew ubANew).lb (s.dataShift gNew lbNew ubNew lbANew ubANew).ub = true →
      ∀ i ∈ s.bounds.fixed, (if s.bounds.status i = ST_LOWER then lowerOf lbNew i - s.lb i else upperOf ubNew i - s.ub i) = 0) ∧
    (s.deltaIsZeroC (s.dataShift gNew lbNew ubNew lbANew ubANew) = true →
      ∀ i ∈ s.cons.fixed, (if s.cons.status i = ST_LOWER then lowerOf lbANew i - s.lbA i else upperOf ubANew i - s.ubA i) = 0) ∧
    ∀ d, s.direction (s.dataShift gNew lbNew ubNew lbANew ubANew) = .ok (.ok d) →
      NoTiny s (s.dataShift gNew lbNew ubNew lbANew ubANew) d ∧
      (∀ tau bc, stepLength s (s.dataShift gNew lbNew ubNew lbANew ubANew) d = .ok (tau, bc) → (tau = 0 ∨ ZERO < tau) ∧ HasLimit s bc) ∧
      ∀ s1 bc, performStep s (s.dataShift gNew lbNew ubNew lbANew ubANew) d = .ok (s1, bc) →
        ¬ s1.homotopyLength gNew lbNew ubNew lbANew ubANew ≤ s1.options.terminationTolerance →
        CleanChange sq s1 bc ∧ ∀ s2, changeActiveSet sq s1 bc = .ok (SUCCESSFUL_RETURN, s2) →
          s2.options.enableCholeskyRefactorisation > 0 ∧ iter % s2.options.enableCholeskyRefactorisation = 0 → CleanChol sq s2 :=
  ⟨fun h => ⟨h.1, h.2, fun d hd => ⟨h.3 d hd, h.4 d hd, h.5 d hd⟩⟩,
    fun h => ⟨h.1, h.2.1, fun d hd => (h.2.2 d hd).1, fun d hd => (h.2.2 d hd).2.1, fun d hd => (h.2.2 d hd).2.2⟩⟩

instance (gNew : Nat → K) (lbNew ubNew lbANew ubANew : Option (Nat → K)) (iter : Int) :
    Decidable (IterClean sq s gNew lbNew ubNew lbANew ubANew iter) := by
  have h1 : ∀ (s1 : QPC K) bc, Decidable (∀ s2, changeActiveSet sq s1 bc = .ok (SUCCESSFUL_RETURN, s2) →
      s2.options.enableCholeskyRefactorisation > 0 ∧ iter % s2.options.enableCholeskyRefactorisation = 0 → CleanChol sq s2) :=
    fun s1 bc => inferInstance
  have h2 : ∀ d, Decidable (∀ s1 bc, performStep s (s.dataShift gNew lbNew ubNew lbANew ubANew) d = .ok (s1, bc) →
      ¬ s1.homotopyLength gNew lbNew ubNew lbANew ubANew ≤ s1.options.terminationTolerance →
      CleanChange sq s1 bc ∧ ∀ s2, changeActiveSet sq s1 bc = .ok (SUCCESSFUL_RETURN, s2) →
        s2.options.enableCholeskyRefactorisation > 0 ∧ iter % s2.options.enableCholeskyRefactorisation = 0 → CleanChol sq s2) :=
    fun d => inferInstance
  have h3 : ∀ d, Decidable (∀ tau bc, stepLength s (s.dataShift gNew lbNew ubNew lbANew ubANew) d = .ok (tau, bc) →
      (tau = 0 ∨ ZERO < tau) ∧ HasLimit s bc) := fun d => inferInstance
  exact decidable_of_iff' _ (iterClean_iff sq s gNew lbNew ubNew lbANew ubANew iter)

instance decLoopClean (sq : K → K) (gNew : Nat → K) (lbNew ubNew lbANew ubANew : Option (Nat → K)) (nWSR performed : Int)
    (cputime : Option K) (starttime : K) : (m : Nat) → (iter : Int) → (s : QPC K) →
    Decidable (LoopClean sq gNew lbNew ubNew lbANew ubANew nWSR performed cputime starttime m iter s)
  | 0, _, _ => isTrue trivial
  | m+1, iter, s => by
    unfold LoopClean
    dsimp only
    have := decLoopClean sq gNew lbNew ubNew lbANew ubANew nWSR performed cputime starttime m (iter+1)
    infer_instance

theorem dropClean_iff (i : Nat) : DropClean sq s i ↔ s.bounds.type i ≠ ST_EQUALITY ∧ (s.options.enableNZCTests = true → s.Curved true i) ∧
    s.CleanRemoveB sq i false := ⟨fun h => ⟨h.1, h.2, h.3⟩, fun h => ⟨h.1, h.2.1, h.2.2⟩⟩

instance (i : Nat) : Decidable (DropClean sq s i) := decidable_of_iff' _ (dropClean_iff sq s i)

theorem limitClean_iff (l u : Nat → K) (i : Nat) : LimitClean sq l u i s ↔
    (l i ≤ -INFTY → s.bounds.status i = ST_LOWER → DropClean sq s i) ∧ (u i ≥ INFTY → s.bounds.status i = ST_UPPER → DropClean sq s i) ∧
    (s.lb i ≤ s.x i ∧ s.x i ≤ s.ub i) ∧
    (s.bounds.type i = ST_EQUALITY ∨ s.bounds.status i = ST_LOWER → l i > -INFTY → ¬ s.lb i ≤ -INFTY) ∧
    (s.bounds.type i = ST_EQUALITY ∨ s.bounds.status i = ST_UPPER → u i < INFTY → ¬ s.ub i ≥ INFTY) :=
  ⟨fun h => ⟨h.1, h.2, h.3, h.4, h.5⟩, fun h => ⟨h.1, h.2.1, h.2.2.1, h.2.2.2.1, h.2.2.2.2⟩⟩

instance (l u : Nat → K) (i : Nat) : Decidable (LimitClean sq l u i s) := decidable_of_iff' _ (limitClean_iff sq s l u i)

instance decSeqClean (c : Nat → QPC K → Prop) [∀ i s, Decidable (c i s)] (f : Nat → QPC K → Res (ReturnValue × QPC K)) :
    (m i : Nat) → (s : QPC K) → Decidable (SeqClean c f m i s)
  | 0, _, _ => isTrue trivial
  | m+1, i, s => by
    unfold SeqClean
    have := decSeqClean c f m (i+1)
    infer_instance

theorem updateClean_iff (lbNew ubNew : Option (Nat → K)) : UpdateClean sq s lbNew ubNew ↔
    ∀ l, lbNew = some l → ∀ u, ubNew = some u → SeqClean (LimitClean sq l u) (updateLimit sq l u) s.nV 0 (s.retyped lbNew ubNew) :=
  ⟨fun h l hl u hu => h l u hl hu, fun h l u hl hu => h l hl u hu⟩

instance (lbNew ubNew : Option (Nat → K)) : Decidable (UpdateClean sq s lbNew ubNew) := by
  have : ∀ (l u : Nat → K) i (t : QPC K), Decidable (LimitClean sq l u i t) := fun l u i t => inferInstance
  exact decidable_of_iff' _ (updateClean_iff sq s lbNew ubNew)

instance decRunClean (gNew : Nat → K) (lbNew ubNew lbANew ubANew : Option (Nat → K)) (nWSR : Int) (cputime : Option K) (performed : Int) :
    Decidable (RunClean sq s gNew lbNew ubNew lbANew ubANew nWSR cputime performed) := by unfold RunClean; infer_instance

instance (i : Nat) : Decidable (EqBClean sq i s) := by unfold EqBClean; infer_instance
instance (i : Nat) : Decidable (EqCClean sq i s) := by unfold EqCClean; infer_instance
instance (w : WS) (i : Nat) : Decidable (AddBClean sq w i s) := by unfold AddBClean; infer_instance
instance (w : WS) (i : Nat) : Decidable (AddCClean sq w i s) := by unfold AddCClean; infer_instance
instance (auxB auxC : WS) : Decidable (LoopsClean sq s auxB auxC) := by unfold LoopsClean; infer_instance
instance (w : WS) (y : Nat → K) (n : Nat) : Decidable (SignFit w y n) := by unfold SignFit; infer_instance

theorem auxClean_iff (xOpt yOpt : Option (Nat → K)) (gB gC : Option WS) : AuxClean sq s xOpt yOpt gB gC ↔
    ∀ auxB, QPB.obtainAux (s.toQPB.auxStatus xOpt yOpt gB) s.nV 0 (WS.init s.nV) = some auxB →
    ∀ auxC, QPB.obtainAux (s.auxStatusC xOpt yOpt gC) s.nC 0 (WS.init s.nC) = some auxC →
    (s.setupTQfactorisation.isTrivial (some auxB) (some auxC) = false → LoopsClean sq s.setupTQfactorisation.plainLI auxB auxC) ∧
    ∀ s1, setupAuxiliaryWorkingSet sq s.setupTQfactorisation (some auxB) (some auxC) true = .ok (SUCCESSFUL_RETURN, s1) →
      SignFit s1.bounds s1.y s1.nV ∧ SignFit s1.cons (fun k => s1.y (s1.nV + k)) s1.nC :=
  ⟨fun h b hb c hc => h b c hb hc, fun h b c hb hc => h b hb c hc⟩

instance (xOpt yOpt : Option (Nat → K)) (gB gC : Option WS) : Decidable (AuxClean sq s xOpt yOpt gB gC) :=
  decidable_of_iff' _ (auxClean_iff sq s xOpt yOpt gB gC)

theorem firstChol_iff : FirstChol sq s ↔
    (s.general = true → ∀ H, s.H = some H → PivotsOK sq s.nZ s.nV s.nZ 0 (fun q => s.cholInput H (q % s.nV) (q / s.nV))) ∧
    (s.general = false → ∀ s', computeProjectedCholesky sq s = .ok (RET_HESSIAN_NOT_SPD, s') → False) ∧
    (s.toQPB.Idle ∨ (s.nV : Int) = (s.nFR : Int) - s.bounds.nFV ∧ ∀ s', computeProjectedCholesky sq s = .ok (RET_HESSIAN_NOT_SPD, s') → False) :=
  ⟨fun h => ⟨h.1, h.2, h.3⟩, fun h => ⟨h.1, h.2.1, h.2.2⟩⟩

instance (s : QPB K) : Decidable s.Idle := by unfold QPB.Idle; infer_instance

instance : Decidable (FirstChol sq s) := decidable_of_iff' _ (firstChol_iff sq s)

theorem coldClean_iff (xOpt yOpt : Option (Nat → K)) (gB gC : Option WS) (nWSR : Int) (cputime : Option K) :
    ColdClean sq s xOpt yOpt gB gC nWSR cputime ↔
    AuxClean sq (coldStart { s with toQPB := (s.toQPB.startClock cputime).2 } xOpt yOpt) xOpt yOpt gB gC ∧
    ∀ s', prepareInitialQP sq { s with toQPB := (s.toQPB.startClock cputime).2 } xOpt yOpt gB gC none nWSR cputime = .ok (.ok s') →
      let q := s'.toQPB.stopClock cputime (s.toQPB.startClock cputime).1
      let s1 : QPC K := { s' with toQPB := { q.2 with count := q.2.count + 1 } }
      FirstChol sq s1 ∧ ∀ s2, setupInitialCholesky sq s1 = .ok (SUCCESSFUL_RETURN, s2) →
        RunClean sq s2 s.g (some s.lb) (some s.ub) (some s.lbA) (some s.ubA) nWSR (cputime.map fun c => c - q.1.getD 0) 0 :=
  ⟨fun h => ⟨h.1, h.2⟩, fun h => ⟨h.1, h.2⟩⟩

instance decColdClean (xOpt yOpt : Option (Nat → K)) (gB gC : Option WS) (nWSR : Int) (cputime : Option K) :
    Decidable (ColdClean sq s xOpt yOpt gB gC nWSR cputime) := decidable_of_iff' _ (coldClean_iff sq s xOpt yOpt gB gC nWSR cputime)

end QPC
end QpOASES
