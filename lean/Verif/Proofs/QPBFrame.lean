import Verif.Proofs.QPBOpt

/-!
What the parts of the homotopy loop of `QProblemB` leave alone, without any assumption about the state.
-/
namespace QpOASES
namespace QPB
open ReturnValue SubjectToStatus SubjectToType HessianType QProblemStatus

set_option linter.unusedSectionVars false

variable {K : Type} [Field K] [LinearOrder K] [IsStrictOrderedRing K]

/-- The regularisation, the options and the ramp; `computeCholesky` adjusts one of the options. -/
def setting (s : QPB K) : K × Options K × K × K := (s.regVal, { s.options with epsRegularisation := 0 }, s.ramp0, s.ramp1)

/-- Members that are not changed by an iteration. -/
structure Keep (s s' : QPB K) : Prop where
  nV : s'.nV = s.nV
  infeasible : s'.infeasible = s.infeasible
  unbounded : s'.unbounded = s.unbounded
  clk : s'.clk = s.clk
  regVal : s'.setting = s.setting
  count : s'.count = s.count
  now : s'.now = s.now

theorem Keep.refl (s : QPB K) : Keep s s := ⟨rfl, rfl, rfl, rfl, rfl, rfl, rfl⟩

theorem Keep.trans {s s' s'' : QPB K} (h : Keep s s') (h' : Keep s' s'') : Keep s s'' :=
  ⟨h'.nV.trans h.nV, h'.infeasible.trans h.infeasible, h'.unbounded.trans h.unbounded, h'.clk.trans h.clk, h'.regVal.trans h.regVal,
    h'.count.trans h.count, h'.now.trans h.now⟩

/-- At most the status of `k` differs. -/
def OneChange (k : Nat) (s s' : QPB K) : Prop := ∀ i, i ≠ k → s'.bounds.status i = s.bounds.status i

theorem addBound_keep (sq : K → K) (s : QPB K) (k : Nat) (st : SubjectToStatus) (u : Bool) :
    Keep s (addBound sq s k st u).2 ∧ (addBound sq s k st u).2.status = s.status ∧ OneChange k s (addBound sq s k st u).2 := by
  unfold addBound
  split
  · exact ⟨.refl s, rfl, fun _ _ => rfl⟩
  · split
    · exact ⟨⟨rfl, rfl, rfl, rfl, rfl, rfl, rfl⟩, rfl, fun i hi => updA_ne _ _ hi⟩
    · exact ⟨⟨rfl, rfl, rfl, rfl, rfl, rfl, rfl⟩, rfl, fun i hi => updA_ne _ _ hi⟩

theorem flipFixed_status (w : WS) (k i : Nat) (h : i ≠ k) : (w.flipFixed k).status i = w.status i := by
  unfold WS.flipFixed
  split <;> first | exact updA_ne _ _ h | rfl

theorem flipBack_keep {s : QPB K} {w : WS} {R : Nat → Nat → K} (hf : s.flip = some (w, R)) (k : Nat) :
    Keep s (flipBack s k).2 ∧ (flipBack s k).2.status = s.status ∧ ∀ i, i ≠ k → (flipBack s k).2.bounds.status i = w.status i := by
  unfold flipBack
  rw [hf]
  dsimp only
  split <;> exact ⟨⟨rfl, rfl, rfl, rfl, rfl, rfl, rfl⟩, rfl, fun i hi => flipFixed_status w k i hi⟩

theorem removeBound_keep {sq : K → K} {s s' : QPB K} {k : Nat} {u : Bool} {r : ReturnValue} (h : removeBound sq s k u = .ok (r, s')) :
    Keep s s' ∧ s'.status = s.status ∧ OneChange k s s' := by
  unfold removeBound at h
  split at h
  · cases h; exact ⟨.refl s, rfl, fun _ _ => rfl⟩
  · -- saving the sets for flipping changes nothing else
    dsimp only at h
    have key : ∀ s0 : QPB K, Keep s s0 → s0.status = s.status → s0.bounds = s.bounds → s0.options = s.options →
        (s.options.enableFlippingBounds = true → s0.flip = some (s.bounds, s.R)) →
        (if s0.status = QPS_PREPARINGAUXILIARYQP then
            Res.ok (SUCCESSFUL_RETURN, ({ s0 with bounds := s0.bounds.moveFixedToFree k } : QPB K))
          else if u = true ∧ s0.hessianType ≠ HST_ZERO ∧ s0.hessianType ≠ HST_IDENTITY then do
            let H ← ({ s0 with bounds := s0.bounds.moveFixedToFree k } : QPB K).getH
            let (r, v) ← backsolveR s0.R s.bounds.nFR (some fun i => H k ((s0.bounds.moveFixedToFree k).fr i)) true (fun _ => 0)
            if r ≠ SUCCESSFUL_RETURN then .ok (RET_REMOVEBOUND_FAILED, ({ s0 with bounds := s0.bounds.moveFixedToFree k } : QPB K)) else
            let r0 := subUp (fun i => v i * v i) 0 s.bounds.nFR (H k k)
            let s1 : QPB K := { s0 with
              bounds := s0.bounds.moveFixedToFree k
              R := fun i j => if i < s.bounds.nFR ∧ j = s.bounds.nFR then v i else s0.R i j }
            if s1.options.enableFlippingBounds then
              if r0 > s1.options.epsFlipping then
                .ok (SUCCESSFUL_RETURN, { s1 with R := fun i j => if i = s.bounds.nFR ∧ j = s.bounds.nFR then sq r0 else s1.R i j })
              else .ok (flipBack { s1 with hessianType := HST_SEMIDEF } k)
            else
              if r0 > ZERO then
                .ok (SUCCESSFUL_RETURN, { s1 with R := fun i j => if i = s.bounds.nFR ∧ j = s.bounds.nFR then sq r0 else s1.R i j })
              else .ok (RET_HESSIAN_NOT_SPD, { s1 with hessianType := HST_SEMIDEF })
          else if s0.hessianType = HST_ZERO ∧ s0.options.enableFlippingBounds = true then
            .ok (flipBack { s0 with bounds := s0.bounds.moveFixedToFree k } k)
          else .ok (SUCCESSFUL_RETURN, ({ s0 with bounds := s0.bounds.moveFixedToFree k } : QPB K))) = .ok (r, s') →
        Keep s s' ∧ s'.status = s.status ∧ OneChange k s s' := by
      intro s0 hk hst hb ho hf h
      have moved : ∀ i, i ≠ k → (s0.bounds.moveFixedToFree k).status i = s.bounds.status i := by
        intro i hi
        rw [hb]
        exact updA_ne _ _ hi
      split at h
      · cases h
        exact ⟨⟨hk.nV, hk.infeasible, hk.unbounded, hk.clk, hk.regVal, hk.count, hk.now⟩, hst, moved⟩
      · split at h
        · obtain ⟨H, _, h⟩ := Res.bind_eq_ok.1 h
          obtain ⟨⟨r1, v⟩, _, h⟩ := Res.bind_eq_ok.1 h
          dsimp only at h
          split at h
          · cases h
            exact ⟨⟨hk.nV, hk.infeasible, hk.unbounded, hk.clk, hk.regVal, hk.count, hk.now⟩, hst, moved⟩
          · split at h
            · rename_i hfl
              split at h
              · cases h
                exact ⟨⟨hk.nV, hk.infeasible, hk.unbounded, hk.clk, hk.regVal, hk.count, hk.now⟩, hst, moved⟩
              · have h := Res.ok.inj h
                have hs' : s' = (flipBack _ k).2 := (congrArg Prod.snd h).symm
                rw [ho] at hfl
                have := flipBack_keep (s := { s0 with
                  bounds := s0.bounds.moveFixedToFree k
                  R := fun i j => if i < s.bounds.nFR ∧ j = s.bounds.nFR then v i else s0.R i j
                  hessianType := HST_SEMIDEF }) (hf hfl) k
                rw [← hs'] at this
                obtain ⟨a, b, c⟩ := this
                exact ⟨hk.trans ⟨a.nV, a.infeasible, a.unbounded, a.clk, a.regVal, a.count, a.now⟩, b.trans hst, c⟩
            · split at h <;> cases h <;>
                exact ⟨⟨hk.nV, hk.infeasible, hk.unbounded, hk.clk, hk.regVal, hk.count, hk.now⟩, hst, moved⟩
        · split at h
          · rename_i hz
            have h := Res.ok.inj h
            have hs' : s' = (flipBack _ k).2 := (congrArg Prod.snd h).symm
            have hfl := hz.2
            rw [ho] at hfl
            have := flipBack_keep (s := { s0 with bounds := s0.bounds.moveFixedToFree k }) (hf hfl) k
            rw [← hs'] at this
            obtain ⟨a, b, c⟩ := this
            exact ⟨hk.trans ⟨a.nV, a.infeasible, a.unbounded, a.clk, a.regVal, a.count, a.now⟩, b.trans hst, c⟩
          · cases h
            exact ⟨⟨hk.nV, hk.infeasible, hk.unbounded, hk.clk, hk.regVal, hk.count, hk.now⟩, hst, moved⟩
    refine key (if s.options.enableFlippingBounds = true then { s with flip := some (s.bounds, s.R) } else s) ?_ ?_ ?_ ?_ ?_ h
    · split
      · exact ⟨rfl, rfl, rfl, rfl, rfl, rfl, rfl⟩
      · exact .refl s
    · split <;> rfl
    · split <;> rfl
    · split <;> rfl
    · intro e
      rw [if_pos e]

theorem changeActiveSet_keep {sq : K → K} {s s' : QPB K} {bc : Option (Nat × SubjectToStatus)} {r : ReturnValue}
    (h : changeActiveSet sq s bc = .ok (r, s')) : Keep s s' ∧ s'.status = s.status ∧ ∃ k, OneChange k s s' := by
  unfold changeActiveSet at h
  split at h
  · cases h; exact ⟨.refl s, rfl, 0, fun _ _ => rfl⟩
  · rename_i k
    obtain ⟨⟨r1, s1⟩, e, h⟩ := Res.bind_eq_ok.1 h
    obtain ⟨a, b, c⟩ := removeBound_keep e
    dsimp only at h
    split at h <;> cases h
    · exact ⟨a, b, k, c⟩
    · exact ⟨⟨a.nV, a.infeasible, a.unbounded, a.clk, a.regVal, a.count, a.now⟩, b, k, c⟩
  · rename_i k st _
    have := addBound_keep sq s k st true
    cases h
    exact ⟨this.1, this.2.1, k, this.2.2⟩

theorem changeActiveSet_none {sq : K → K} {s s' : QPB K} {r : ReturnValue}
    (h : changeActiveSet sq s none = .ok (r, s')) : r = RET_OPTIMAL_SOLUTION_FOUND ∧ s' = s := by
  cases h; exact ⟨rfl, rfl⟩

theorem computeCholesky_keep {sq : K → K} {s s' : QPB K} {r : ReturnValue} (h : computeCholesky sq s = .ok (r, s')) :
    Keep s s' ∧ s'.status = s.status ∧ s'.bounds = s.bounds ∧ s'.x = s.x ∧ s'.y = s.y ∧ s'.g = s.g ∧ s'.lb = s.lb ∧ s'.ub = s.ub ∧
      s'.H = s.H ∧ s'.rampOffset = s.rampOffset ∧ s'.now = s.now := by
  have inner : (do
      let H ← s.getH
      let R0 : Nat → Nat → K := fun i j => if i < s.bounds.nFR ∧ j < s.bounds.nFR then H (s.bounds.fr i) (s.bounds.fr j) else 0
      let p := potrf sq s.bounds.nFR (fun q => R0 (q % s.nV) (q / s.nV)) s.nV
      let R1 : Nat → Nat → K := fun i j => p.2 (i + s.nV * j)
      let s := { s with R := R1 }
      if p.1 > 0 then
        let s := if R1 0 0 < 0 then
            { s with options := { s.options with
              epsRegularisation := getMin (-(R1 0 0) + s.options.epsRegularisation) (sq (getAbs s.options.epsRegularisation)) } }
          else s
        .ok (RET_HESSIAN_NOT_SPD, { s with hessianType := HST_SEMIDEF })
      else
        .ok (SUCCESSFUL_RETURN, { s with R := fun i j => if i = j + 1 ∧ j + 1 < s.bounds.nFR then 0 else R1 i j })) = Res.ok (r, s') →
      Keep s s' ∧ s'.status = s.status ∧ s'.bounds = s.bounds ∧ s'.x = s.x ∧ s'.y = s.y ∧ s'.g = s.g ∧ s'.lb = s.lb ∧ s'.ub = s.ub ∧
        s'.H = s.H ∧ s'.rampOffset = s.rampOffset ∧ s'.now = s.now := by
    intro h
    obtain ⟨H, _, h⟩ := Res.bind_eq_ok.1 h
    dsimp only at h
    split at h
    · split at h <;> cases h <;> exact ⟨⟨rfl, rfl, rfl, rfl, rfl, rfl, rfl⟩, rfl, rfl, rfl, rfl, rfl, rfl, rfl, rfl, rfl, rfl⟩
    · cases h
      exact ⟨⟨rfl, rfl, rfl, rfl, rfl, rfl, rfl⟩, rfl, rfl, rfl, rfl, rfl, rfl, rfl, rfl, rfl, rfl⟩
  unfold computeCholesky at h
  dsimp only at h
  split at h
  · split at h <;> cases h <;> exact ⟨⟨rfl, rfl, rfl, rfl, rfl, rfl, rfl⟩, rfl, rfl, rfl, rfl, rfl, rfl, rfl, rfl, rfl, rfl⟩
  · cases h
    exact ⟨⟨rfl, rfl, rfl, rfl, rfl, rfl, rfl⟩, rfl, rfl, rfl, rfl, rfl, rfl, rfl, rfl, rfl, rfl⟩
  · split at h
    · exact inner h
    · cases h
      exact ⟨⟨rfl, rfl, rfl, rfl, rfl, rfl, rfl⟩, rfl, rfl, rfl, rfl, rfl, rfl, rfl, rfl, rfl, rfl⟩

theorem setupAuxiliaryQPgradient_keep {s s' : QPB K} (h : setupAuxiliaryQPgradient s = .ok s') : ∃ g, s' = { s with g := g } := by
  unfold setupAuxiliaryQPgradient at h
  split at h
  · cases h; split <;> exact ⟨_, rfl⟩
  · cases h; exact ⟨_, rfl⟩
  · obtain ⟨H, _, h⟩ := Res.bind_eq_ok.1 h
    cases h; exact ⟨_, rfl⟩

theorem rampOne_keep {s s' : QPB K} {i : Nat} (h : rampOne s i = .ok s') : ∃ l u y, s' = { s with lb := l, ub := u, y := y } := by
  unfold rampOne at h
  split at h
  · cases h; exact ⟨_, _, _, rfl⟩
  · cases h; exact ⟨_, _, _, rfl⟩
  · cases h; exact ⟨_, _, _, rfl⟩
  · obtain ⟨v, _, h⟩ := Res.bind_eq_ok.1 h
    cases h; exact ⟨_, _, _, rfl⟩

theorem rampLoop_keep : ∀ (m i : Nat) (s s' : QPB K), rampLoop m i s = .ok s' → ∃ l u y, s' = { s with lb := l, ub := u, y := y } := by
  intro m
  induction m with
  | zero => intro i s s' h; cases h; exact ⟨_, _, _, rfl⟩
  | succ m ih =>
    intro i s s' h
    obtain ⟨s1, e, h⟩ := Res.bind_eq_ok.1 h
    obtain ⟨l, u, y, rfl⟩ := rampOne_keep e
    obtain ⟨l', u', y', rfl⟩ := ih _ _ _ h
    exact ⟨_, _, _, rfl⟩

theorem performRamping_keep {s s' : QPB K} (h : performRamping s = .ok s') :
    Keep s s' ∧ s'.status = s.status ∧ s'.bounds = s.bounds ∧ s'.x = s.x := by
  obtain ⟨s1, e, h⟩ := Res.bind_eq_ok.1 h
  obtain ⟨l, u, y, rfl⟩ := rampLoop_keep _ _ _ _ e
  obtain ⟨s2, e, h⟩ := Res.bind_eq_ok.1 h
  obtain ⟨g, rfl⟩ := setupAuxiliaryQPgradient_keep e
  cases h
  exact ⟨⟨rfl, rfl, rfl, rfl, rfl, rfl, rfl⟩, rfl, rfl, rfl⟩

theorem performDriftCorrection_keep {s s' : QPB K} (h : performDriftCorrection s = .ok s') :
    Keep s s' ∧ s'.status = s.status ∧ s'.bounds = s.bounds ∧ s'.x = s.x := by
  obtain ⟨g, rfl⟩ := setupAuxiliaryQPgradient_keep h
  exact ⟨⟨rfl, rfl, rfl, rfl, rfl, rfl, rfl⟩, rfl, rfl, rfl⟩

theorem performStep_keep {s s' : QPB K} {dg dlb dub : Nat → K} {d : Dir K} {bc : Option (Nat × SubjectToStatus)}
    (h : performStep s dg dlb dub d = .ok (s', bc)) : Keep s s' ∧ s'.status = s.status ∧ s'.bounds = s.bounds := by
  obtain ⟨⟨tau, b⟩, _, h⟩ := Res.bind_eq_ok.1 h
  cases h
  rw [takeStep_fields]
  exact ⟨⟨rfl, rfl, rfl, rfl, rfl, rfl, rfl⟩, rfl, rfl⟩

theorem stopClock_keep (s : QPB K) (c : Option K) (t : K) : ∃ k, (s.stopClock c t).2 = { s with now := k } := by
  unfold stopClock
  split
  · exact ⟨s.now, rfl⟩
  · exact ⟨_, rfl⟩

theorem startClock_keep (s : QPB K) (c : Option K) : ∃ k, (s.startClock c).2 = { s with now := k } := by
  unfold startClock
  split
  · exact ⟨s.now, rfl⟩
  · exact ⟨_, rfl⟩

theorem finish_keep (s : QPB K) (r : ReturnValue) (n : Int) (c : Option K) (t : K) :
    (s.finish r n c t).rv = r ∧ (s.finish r n c t).nWSR = n ∧ ∃ k, (s.finish r n c t).s = { s with now := k } :=
  ⟨rfl, rfl, stopClock_keep s c t⟩

theorem cpuLimit_keep (s : QPB K) (c : Option K) (t : K) (n : Int) : ∃ k, (s.isCPUtimeLimitExceeded c t n).2 = { s with now := k } := by
  unfold isCPUtimeLimitExceeded
  split
  · exact ⟨s.now, rfl⟩
  · split
    · exact ⟨s.now, rfl⟩
    · exact ⟨_, rfl⟩

end QPB
end QpOASES
