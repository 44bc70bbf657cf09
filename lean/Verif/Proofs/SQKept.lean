import Verif.Proofs.QPCKept
import Verif.Model.SQProblem

/-!
Which options a hotstart with new matrices changes.
-/
namespace QpOASES
namespace QPC
open Finset SubjectToStatus SubjectToType ReturnValue HessianType QProblemStatus

set_option linter.unusedSectionVars false

variable {K : Type} [Field K] [LinearOrder K] [IsStrictOrderedRing K]

/-- The new Hessian is zero. -/
def ZeroMatrix (n : Nat) (H : Option (Nat → K)) : Prop := ∃ h, H = some h ∧ ∀ i < n, ∀ j < n, |h (i * n + j)| ≤ EPS

theorem changeMatrix_frame (sq : K → K) (s : QPC K) (A : Option (Nat → K)) :
    (changeMatrix sq s A).light = s.light ∧ (changeMatrix sq s A).nV = s.nV := by
  unfold changeMatrix
  split
  · split
    · exact ⟨rfl, rfl⟩
    · exact ⟨rfl, rfl⟩
  · exact ⟨rfl, rfl⟩

theorem changeHessian_widened {sq : K → K} {s s' : QPC K} {H : Option (Nat → K)} {r : ReturnValue}
    (h : changeHessian sq s H = .ok (r, s')) : Widened (ZeroMatrix s.nV H) s' s.light := by
  unfold changeHessian at h
  split at h
  · cases h; exact Or.inl rfl
  · rename_i h0
    have hd := QPB.determineHessianType_grown ({ s.toQPB with H := some fun i j => h0 (i * s.nV + j), hessianType := HST_UNKNOWN } : QPB K)
    generalize ({ s.toQPB with H := some fun i j => h0 (i * s.nV + j), hessianType := HST_UNKNOWN } : QPB K).determineHessianType = p at h hd
    obtain ⟨r1, b⟩ := p
    dsimp only at h hd
    have hd' : Widened (ZeroMatrix s.nV (some h0)) ({ s with toQPB := b } : QPC K) s.light := by
      rcases hd with hd | ⟨z, h1, h2⟩
      · exact Or.inl (steady_light hd)
      · refine Or.inr ⟨?_, h1, ?_⟩
        · rcases z with z | z | ⟨M, hM, z⟩
          · cases z
          · cases z
          · cases hM
            exact ⟨h0, rfl, z⟩
        · show ({ b.steady with enableFullLITests := false } : Options K) = _
          rw [h2]
          rfl
    split at h
    · cases h; exact hd'
    · split at h
      · obtain ⟨⟨r2, s2⟩, e2, h⟩ := Res.bind_eq_ok.1 h
        obtain ⟨H', v, f⟩ := regulariseHessian_fields e2
        cases h
        refine .trans ?_ hd'
        rw [f]
        rfl
      · cases h; exact hd'

theorem tryWorkingSet_light {sq : K → K} {s : QPC K} {lbNew ubNew lbANew ubANew : Option (Nat → K)} {oldB oldC : WS}
    {p : Option ReturnValue × QPC K × WS × WS} (h : tryWorkingSet sq s lbNew ubNew lbANew ubANew oldB oldC = .ok p) :
    p.2.1.light = s.light := by
  unfold tryWorkingSet at h
  dsimp only at h
  obtain ⟨⟨r1, s1⟩, e1, h⟩ := Res.bind_eq_ok.1 h
  have a1 : s1.light = s.light := (setupAuxiliaryWorkingSet_light e1).trans (by rfl)
  dsimp only at h
  split at h
  · cases h; exact a1
  · obtain ⟨⟨r2, s2⟩, e2, h⟩ := Res.bind_eq_ok.1 h
    cases h
    exact (base_light (congrArg Prod.fst (computeProjectedCholesky_still e2).1)).trans a1

theorem newFactors_light {sq : K → K} {s s' : QPC K} {lbNew ubNew lbANew ubANew : Option (Nat → K)} {r : ReturnValue}
    (h : newFactors sq s lbNew ubNew lbANew ubANew = .ok (r, s')) : s'.light = s.light := by
  unfold newFactors at h
  obtain ⟨⟨r1, s1, b1, c1⟩, e1, h⟩ := Res.bind_eq_ok.1 h
  have a1 : s1.light = s.light := tryWorkingSet_light e1
  dsimp only at h
  split at h
  · cases h; exact a1
  · cases h; exact a1
  · obtain ⟨⟨r2, s2, b2, c2⟩, e2, h⟩ := Res.bind_eq_ok.1 h
    have a2 : s2.light = s.light := (tryWorkingSet_light e2).trans a1
    dsimp only at h
    split at h
    · cases h; exact a2
    · cases h
      exact (setupAuxiliaryQPbounds_light ({ s2 with Axl := s2.Ax, Axu := s2.Ax } : QPC K) none).trans a2

theorem setupNewAuxiliaryQP_widened {sq : K → K} {s s' : QPC K} {H A lbNew ubNew lbANew ubANew : Option (Nat → K)} {r : ReturnValue}
    (h : setupNewAuxiliaryQP sq s H A lbNew ubNew lbANew ubANew = .ok (r, s')) : Widened (ZeroMatrix s.nV H) s' s.light := by
  unfold setupNewAuxiliaryQP at h
  split at h
  · cases h; exact Or.inl rfl
  split at h
  · cases h; exact Or.inl rfl
  dsimp only at h
  obtain ⟨⟨r1, s1⟩, e1, h⟩ := Res.bind_eq_ok.1 h
  obtain ⟨m1, m2⟩ := changeMatrix_frame sq ({ s with status := QPS_PREPARINGAUXILIARYQP } : QPC K) A
  have a1 := changeHessian_widened e1
  rw [m1, m2] at a1
  have a1 : Widened (ZeroMatrix s.nV H) s1 s.light := a1
  dsimp only at h
  split at h
  · cases h; exact a1
  · obtain ⟨s2, e2, h⟩ := Res.bind_eq_ok.1 h
    obtain ⟨g, e⟩ := setupAuxiliaryQPgradient_fields e2
    have a2 : s2.light = s1.light := by rw [e]; rfl
    exact .trans ((newFactors_light h).trans a2) a1

theorem hotstartNew_widened {sq : K → K} {fuel : Nat} {s : QPC K} {H : Option (Nat → K)} {gNew : Nat → K}
    {A lbNew ubNew lbANew ubANew : Option (Nat → K)} {nWSR : Int} {c : Option K} {gB gC : QPB.Guess} {o : OutC K} (hb : 0 ≤ nWSR)
    (h : hotstartNew sq fuel s H gNew A lbNew ubNew lbANew ubANew nWSR c gB gC = .ok o) : Widened (ZeroMatrix s.nV H) o.s s.light := by
  unfold hotstartNew at h
  split at h
  · cases h; exact Or.inl rfl
  dsimp only at h
  obtain ⟨⟨r1, s1⟩, e1, h⟩ := Res.bind_eq_ok.1 h
  obtain ⟨k, ek⟩ := startClock_fields s c
  rw [ek] at e1
  have a0 := setupNewAuxiliaryQP_widened e1
  have a1 : Widened (ZeroMatrix s.nV H) s1 s.light := a0
  dsimp only at h
  split at h
  · cases h; exact a1
  · obtain ⟨o1, e2, h⟩ := Res.bind_eq_ok.1 h
    cases h
    obtain ⟨k2, f2⟩ := stopClock_fields o1.s c (s.toQPB.startClock c).1
    refine .trans (congrArg light f2) ?_
    refine .trans (s := o1.s) (by rfl) ?_
    refine .trans (hotstart_light hb e2) ?_
    obtain ⟨k3, f3⟩ := stopClock_fields s1 c (s.toQPB.startClock c).1
    refine .trans (congrArg light f3) ?_
    exact .trans (s := s1) (by rfl) a1

end QPC
end QpOASES
