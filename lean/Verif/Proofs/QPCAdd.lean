import Verif.Proofs.QPCChange

/-!
Adding a bound or a constraint to the working set, with the exchange of a linearly dependent member.
-/
namespace QpOASES
open Finset Props SubjectToStatus SubjectToType ReturnValue HessianType
open QPB (sg DenOK sg_sub sg_ne nonneg_shorten ratioTest_spec)

set_option linter.unusedSectionVars false

variable {K : Type} [Field K] [LinearOrder K] [IsStrictOrderedRing K]

namespace QPC

theorem sum_scatterC {s : QPC K} (hs : s.Shape) (xi : Nat → K) (f : Nat → K) :
    ∑ k ∈ range s.nC, f k * s.cons.scatter (fun _ => 0) xi k = ∑ c ∈ range s.nAC, f (s.ac c) * xi c := by
  rw [← hs.nC, hs.okC.sum]
  rw [show ∑ c ∈ range s.cons.nFR, f (s.cons.fr c) * s.cons.scatter (fun _ => 0) xi (s.cons.fr c) = 0 from sum_eq_zero fun c hc => by
    rw [hs.okC.scatter_fr _ _ (mem_range.1 hc), mul_zero], zero_add]
  refine sum_congr rfl fun c hc => ?_
  rw [hs.okC.scatter_fx _ _ (mem_range.1 hc)]
  rfl

/-- The vector `e` is the combination of the gradients of the active members with coefficients `xiC`, `xiB`. -/
def LIDep (s : QPC K) (e xiC xiB : Nat → K) : Prop :=
  ∀ i < s.nV, e i = s.bounds.scatter (fun _ => 0) xiB i + ∑ k ∈ range s.nC, s.A k i * s.cons.scatter (fun _ => 0) xiC k

theorem lidep_of {s : QPC K} (hf : s.Facs) {e xiC xiB : Nat → K} (hz : ∀ j < s.nZ, ∑ r ∈ range s.nFR, e (s.fr r) * s.Q (s.fr r) j = 0)
    (hr : ∀ c < s.nAC, ∑ r ∈ range s.nFR, s.Q (s.fr r) (s.nZ + c) * e (s.fr r) =
      ∑ k ∈ range s.nAC, (∑ r ∈ range s.nFR, s.A (s.ac k) (s.fr r) * s.Q (s.fr r) (s.nZ + c)) * xiC k)
    (hB : ∀ i < s.nFX, xiB i = e (s.fx i) - ∑ k ∈ range s.nAC, s.A (s.ac k) (s.fx i) * xiC k) : s.LIDep e xiC xiB := by
  have hw := hf.shape.okB
  have h1 := hf.pos.solve (v := fun r => e (s.fr r)) (dy := xiC) (fun a ha => by
    rw [← hz a ha]; exact sum_congr rfl fun _ _ => mul_comm _ _) hr
  intro i hi
  rw [sum_scatterC hf.shape xiC (fun k => s.A k i)]
  rw [← hf.shape.nB] at hi
  rcases hw.mem_iff.1 hi with hm | hm
  · have hk := WS.idxOf_fr_lt hm
    have hik := WS.fr_idxOf hm
    set k := s.bounds.free.idxOf i
    rw [← hik, hw.scatter_fr _ _ hk, zero_add]
    exact h1 k hk
  · have hk := WS.idxOf_fx_lt hm
    have hik := WS.fx_idxOf hm
    set k := s.bounds.fixed.idxOf i
    rw [← hik, hw.scatter_fx _ _ hk, hB k hk]
    show e (s.fx k) = e (s.fx k) - _ + ∑ c ∈ range s.nAC, s.A (s.ac c) (s.fx k) * xiC c
    ring

theorem coeffC_spec {s : QPC K} (hp : s.Pos) {v xi : Nat → K} (h : s.coeffC v = some xi) :
    ∀ c < s.nAC, v c = ∑ k ∈ range s.nAC, (∑ r ∈ range s.nFR, s.A (s.ac k) (s.fr r) * s.Q (s.fr r) (s.nZ + c)) * xi k := by
  intro c hc
  rw [hp.mulT_transposed hc]
  unfold coeffC at h
  rw [if_pos (by omega)] at h
  rcases C25_solve_transposed hp.size v (fun _ => (0 : K)) with ⟨a', e1, e2, _⟩ | ⟨a', i, e1, _⟩
  · rw [e1] at h
    simp only [ne_eq, not_true_eq_false, if_false] at h
    cases h
    exact (e2 c hc).symm
  · rw [e1] at h
    dsimp only at h
    rw [if_pos (by decide)] at h
    cases h

/-- All but the member that is about to enter, whose multiplier is stored at `p`, is in order. -/
structure Ready (s : QPC K) (p : Nat) : Prop where
  facs : s.Facs
  nz : 0 < s.nZ
  ax : s.AxOK
  stat : ∀ i < s.nV, ∑ j ∈ range s.nV, s.Heff i j * s.x j + s.g i = s.y i + ∑ k ∈ range s.nC, s.A k i * s.y (s.nV + k)
  bounds : SideOK s.bounds (fun _ => True) s.x s.lb s.ub (updA s.y p 0) s.nV
  cons : SideOK s.cons (fun i => s.cons.type i ≠ ST_UNBOUNDED) (s.prodA s.x) s.lbA s.ubA (fun k => updA s.y p 0 (s.nV + k)) s.nC

theorem Good.ready {s : QPC K} (h : s.Good) (hz : 0 < s.nZ) {p : Nat} (hp : s.y p = 0) : s.Ready p := by
  have e := updA_self hp
  refine ⟨h.facs, hz, h.ax, h.opt.stat, ?_, ?_⟩
  · rw [e]; exact h.opt.bounds
  · rw [e]; exact h.opt.cons

theorem Ready.addB {sq : K → K} {s : QPC K} {number : Nat} (h : s.Ready number) (hm : number ∈ s.bounds.free)
    (hty : s.bounds.type number ≠ ST_EQUALITY) {st : SubjectToStatus} (hst : st = ST_LOWER ∨ st = ST_UPPER)
    (hl : st = ST_LOWER → s.x number = s.lb number ∧ 0 ≤ s.y number) (hu : st = ST_UPPER → s.x number = s.ub number ∧ s.y number ≤ 0)
    (hc : s.CleanAddB sq number true) :
    ∃ s', addBoundUpdate sq s number st true = .ok (SUCCESSFUL_RETURN, s') ∧ s'.Good ∧ Same s' s := by
  obtain ⟨T, Q, R, e, f1, f2, f3⟩ := addBoundUpdate_spec h.facs.shape h.facs.tq h.facs.sym hm hst h.nz (fun _ => h.facs.chol) hc
  obtain ⟨_, _, _, _, _, _, _, b8, b9, b10, b11, _⟩ := swapped_spec h.facs.shape hm
  have hlt : number < s.nV := by rw [← h.facs.shape.nB]; exact h.facs.shape.okB.lt_free hm
  refine ⟨_, e, ⟨⟨f1, f2, f3 rfl, h.facs.sym⟩, ⟨h.stat, ?_, ?_⟩, h.ax⟩, ⟨rfl, rfl, rfl, rfl, rfl, rfl, b9, rfl, rfl, b10, b11, rfl, rfl, rfl, rfl⟩⟩
  · refine (h.bounds.congrW b8 b9 b10 b11).add hst (by rw [b9]; exact hty) ?_ hl hu
    exact fun i _ hi => (updA_ne _ _ hi).symm
  · refine h.cons.congr (fun _ _ => rfl) (fun _ _ => rfl) (fun _ _ => rfl) fun k _ => ?_
    exact (updA_ne _ _ (show s.nV + k ≠ number by omega)).symm

theorem Ready.addC {sq : K → K} {s : QPC K} {number : Nat} (h : s.Ready (s.nV + number)) (hm : number ∈ s.cons.free)
    (hty : s.cons.type number ≠ ST_EQUALITY) {st : SubjectToStatus} (hst : st = ST_LOWER ∨ st = ST_UPPER)
    (hl : st = ST_LOWER → s.prodA s.x number = s.lbA number ∧ 0 ≤ s.y (s.nV + number))
    (hu : st = ST_UPPER → s.prodA s.x number = s.ubA number ∧ s.y (s.nV + number) ≤ 0)
    (hc : s.CleanAddC sq number true) :
    ∃ s', addConstraintUpdate sq s number st true = .ok (SUCCESSFUL_RETURN, s') ∧ s'.Good ∧ Same s' s := by
  obtain ⟨T, Q, R, e, f1, f2, f3⟩ := addConstraintUpdate_spec h.facs.shape h.facs.tq h.facs.sym hm hst h.nz (fun _ => h.facs.chol) hc
  refine ⟨_, e, ⟨⟨f1, f2, f3 rfl, h.facs.sym⟩, ⟨h.stat, ?_, ?_⟩, h.ax⟩, ⟨rfl, rfl, rfl, rfl, rfl, rfl, rfl, rfl, rfl, rfl, rfl, rfl, rfl, rfl, rfl⟩⟩
  · refine h.bounds.congr (fun _ _ => rfl) (fun _ _ => rfl) (fun _ _ => rfl) fun k hk => ?_
    exact (updA_ne _ _ (show k ≠ s.nV + number by have : k < s.nV := hk; omega)).symm
  · refine h.cons.add hst hty ?_ hl hu
    exact fun i _ hi => (updA_ne _ _ (show s.nV + i ≠ s.nV + number by omega)).symm

/-- Where the multiplier of a member is stored -/
def posOf (s : QPC K) (isB : Bool) (number : Nat) : Nat := if isB then number else s.nV + number

/-- The state `s'` is ready for member `number`, whose gradient may have been dependent of those of the active members in `s`. -/
structure Resolved (s' s : QPC K) (isB : Bool) (number : Nat) (st : SubjectToStatus) : Prop where
  ready : s'.Ready (s'.posOf isB number)
  same : Same s' s
  x : s'.x = s.x
  lb : s'.lb = s.lb
  ub : s'.ub = s.ub
  lbA : s'.lbA = s.lbA
  ubA : s'.ubA = s.ubA
  freeB : ∀ i ∈ s.bounds.free, i ∈ s'.bounds.free
  freeC : ∀ i ∈ s.cons.free, i ∈ s'.cons.free
  sign : ∃ t, 0 ≤ t ∧ s'.y (s'.posOf isB number) = if st = ST_LOWER then t else -t

/-- The exchange of a dependent member is exact. -/
structure CleanResolve (sq : K → K) (s : QPC K) (xiC xiB : Nat → K) : Prop where
  denC : ∀ k < s.nAC, s.cons.type (s.ac k) ≠ ST_EQUALITY → DenOK s.options.epsDen (sg s.cons (s.ac k) (xiC k))
  denB : ∀ k < s.nFX, s.bounds.type (s.fx k) ≠ ST_EQUALITY → DenOK s.options.epsDen (sg s.bounds (s.fx k) (xiB k))
  remB : ∀ t1 bc t2 k, QPB.ratioTest s.cons (fun i => s.y (s.nV + s.ac i)) xiC s.options.epsNum s.options.epsDen s.cons.fixed 0
      s.options.maxDualJump none = .ok (t1, bc) →
    QPB.ratioTest s.bounds (fun i => s.y (s.fx i)) xiB s.options.epsNum s.options.epsDen s.bounds.fixed 0 t1 none = .ok (t2, some k) →
    s.CleanRemoveB sq k false
  remC : ∀ t1 k t2, QPB.ratioTest s.cons (fun i => s.y (s.nV + s.ac i)) xiC s.options.epsNum s.options.epsDen s.cons.fixed 0
      s.options.maxDualJump none = .ok (t1, some k) →
    QPB.ratioTest s.bounds (fun i => s.y (s.fx i)) xiB s.options.epsNum s.options.epsDen s.bounds.fixed 0 t1 none = .ok (t2, none) →
    s.CleanRemoveC sq k false

theorem resolveLI_spec {sq : K → K} {s s' : QPC K} (h : s.Good) (he : s.options.epsNum ≤ 0) (hd : 0 ≤ s.options.epsDen)
    (hj : 0 ≤ s.options.maxDualJump) (hdrop : s.options.enableDropInfeasibles = false) {number : Nat} {st : SubjectToStatus} {isB : Bool}
    {e xiC xiB : Nat → K} (hdep : s.LIDep e xiC xiB)
    (hnum : if isB then number ∈ s.bounds.free else number ∈ s.cons.free)
    (hE : ∀ i < s.nV, e i = (if st = ST_LOWER then 1 else -1) * (if isB then (if i = number then 1 else 0) else s.A number i))
    (hc : CleanResolve sq s xiC xiB)
    (heq : resolveLI sq s number st isB xiC xiB = .ok (SUCCESSFUL_RETURN, s')) : Resolved s' s isB number st := by
  have hs := h.facs.shape
  have hwB := hs.okB
  have hwC := hs.okC
  have hyC := h.opt.cons.sign hwC hs.nC
  have hyB := h.opt.bounds.sign hwB hs.nB
  obtain ⟨t1, bc, r1, p1, q1, c1, d1⟩ := ratioTest_spec (w := s.cons) (num := fun i => s.y (s.nV + s.ac i)) (den := xiC) he hd s.cons.fixed 0
    s.options.maxDualJump none hj (fun ii h => ⟨hwC.lt_fixed h, Or.inr (hwC.fixed ii h)⟩) (fun k hk hty => by rw [Nat.zero_add]; exact hyC k hk hty)
  obtain ⟨t, bb, r2, p2, q2, c2, d2⟩ := ratioTest_spec (w := s.bounds) (num := fun i => s.y (s.fx i)) (den := xiB) he hd s.bounds.fixed 0
    t1 none p1 (fun ii h => ⟨hwB.lt_fixed h, Or.inr (hwB.fixed ii h)⟩) (fun k hk hty => by rw [Nat.zero_add]; exact hyB k hk hty)
  -- the multipliers after the change
  have hremB := hc.remB
  have hremC := hc.remC
  unfold resolveLI at heq
  dsimp only at heq
  rw [r1] at heq hremB hremC
  simp only [Res.bind_ok] at heq
  rw [r2] at heq
  simp only [Res.bind_ok] at heq
  obtain ⟨y1, y2⟩ : (∀ i < s.nV, addAt (-t) xiB s.bounds.fixed (addAt (-t) xiC (s.cons.fixed.map (s.nV + ·)) s.y) i =
        s.y i - t * s.bounds.scatter (fun _ => 0) xiB i) ∧
      (∀ k < s.nC, addAt (-t) xiB s.bounds.fixed (addAt (-t) xiC (s.cons.fixed.map (s.nV + ·)) s.y) (s.nV + k) =
        s.y (s.nV + k) - t * s.cons.scatter (fun _ => 0) xiC k) := by
    refine ⟨fun i hi => ?_, fun k hk => ?_⟩
    · rw [addAt_apply _ _ _ _ hwB.nodup_fixed, addAt_apply _ _ _ _ (nodup_map_add hwC.nodup_fixed), if_neg (not_mem_map_add hi)]
      unfold WS.scatter
      rw [← hs.nB] at hi
      rcases hwB.mem_iff.1 hi with h | h
      · rw [if_neg (fun h' => hwB.disjoint h h'), if_pos h, mul_zero, sub_zero]
      · rw [if_pos h, if_neg (fun h' => hwB.disjoint h' h)]; ring
    · have hno : s.nV + k ∉ s.bounds.fixed := by
        intro h
        have := hwB.lt_fixed h
        rw [hs.nB] at this
        omega
      rw [addAt_apply _ _ _ _ hwB.nodup_fixed, if_neg hno, addAt_apply _ _ _ _ (nodup_map_add hwC.nodup_fixed), idxOf_map_add]
      unfold WS.scatter
      rw [← hs.nC] at hk
      rcases hwC.mem_iff.1 hk with h | h
      · rw [if_neg (fun h' => hwC.disjoint h (mem_map_add.1 h')), if_pos h, mul_zero, sub_zero]
      · rw [if_pos (mem_map_add.2 h), if_neg (fun h' => hwC.disjoint h' h)]; ring
  generalize hyb : addAt (-t) xiB s.bounds.fixed (addAt (-t) xiC (s.cons.fixed.map (s.nV + ·)) s.y) = yb at *
  have hscB : ∀ k < s.bounds.nFX, s.bounds.scatter (fun _ => (0 : K)) xiB (s.bounds.fx k) = xiB k := fun k hk => hwB.scatter_fx _ _ hk
  have hscC : ∀ k < s.cons.nFX, s.cons.scatter (fun _ => (0 : K)) xiC (s.cons.fx k) = xiC k := fun k hk => hwC.scatter_fx _ _ hk
  have hB1 : SideOK s.bounds (fun _ => True) s.x s.lb s.ub yb s.nV := by
    refine h.opt.bounds.dual hwB hs.nB (fun i hi => ?_) fun i hi hty => ?_
    · rw [y1 i (by rw [← hs.nB]; exact hwB.lt_free hi)]
      unfold WS.scatter
      rw [if_pos hi, mul_zero, sub_zero]
    · have hlt : i < s.nV := by rw [← hs.nB]; exact hwB.lt_fixed hi
      have hk := WS.idxOf_fx_lt hi
      have hik : s.bounds.fixed.getD (s.bounds.fixed.idxOf i) 0 = i := WS.fx_idxOf hi
      have g1 := c2 _ hk (by rw [hik]; exact hty) (by rw [Nat.zero_add, hik]; have := hc.denB _ hk; rw [show s.fx (s.bounds.fixed.idxOf i) = i from hik] at this; exact this hty)
      have g2 := hscB _ hk
      rw [show s.bounds.fx (s.bounds.fixed.idxOf i) = i from hik] at g2
      rw [Nat.zero_add, hik, show s.fx (s.bounds.fixed.idxOf i) = i from hik, ← sg_sub] at g1
      rw [y1 i hlt, g2]
      exact g1
  have hC1 : SideOK s.cons (fun i => s.cons.type i ≠ ST_UNBOUNDED) (s.prodA s.x) s.lbA s.ubA (fun k => yb (s.nV + k)) s.nC := by
    refine h.opt.cons.dual hwC hs.nC (fun i hi => ?_) fun i hi hty => ?_
    · rw [y2 i (by rw [← hs.nC]; exact hwC.lt_free hi)]
      unfold WS.scatter
      rw [if_pos hi, mul_zero, sub_zero]
    · have hlt : i < s.nC := by rw [← hs.nC]; exact hwC.lt_fixed hi
      have hk := WS.idxOf_fx_lt hi
      have hik : s.cons.fixed.getD (s.cons.fixed.idxOf i) 0 = i := WS.fx_idxOf hi
      have g1 := c1 _ hk (by rw [hik]; exact hty) (by rw [Nat.zero_add, hik]; have := hc.denC _ hk; rw [show s.ac (s.cons.fixed.idxOf i) = i from hik] at this; exact this hty)
      have g2 := hscC _ hk
      rw [show s.cons.fx (s.cons.fixed.idxOf i) = i from hik] at g2
      have g3 := hyC _ hk
      rw [show s.cons.fx (s.cons.fixed.idxOf i) = i from hik] at g3
      rw [Nat.zero_add, hik, show s.ac (s.cons.fixed.idxOf i) = i from hik] at g1
      rw [y2 i hlt, g2, sg_sub]
      exact nonneg_shorten (g3 hty) g1 p2 q2
  have hstat1 : ∀ i < s.nV, yb i + ∑ k ∈ range s.nC, s.A k i * yb (s.nV + k) =
      s.y i + ∑ k ∈ range s.nC, s.A k i * s.y (s.nV + k) - t * e i := by
    intro i hi
    rw [hdep i hi, y1 i hi]
    have : ∑ k ∈ range s.nC, s.A k i * yb (s.nV + k) =
        ∑ k ∈ range s.nC, s.A k i * s.y (s.nV + k) - t * ∑ k ∈ range s.nC, s.A k i * s.cons.scatter (fun _ => 0) xiC k := by
      rw [mul_sum, ← sum_sub_distrib]
      refine sum_congr rfl fun k hk => ?_
      rw [y2 k (mem_range.1 hk)]; ring
    rw [this]; ring
  -- position of the new multiplier
  have hpos0 : yb (s.posOf isB number) = 0 := by
    unfold posOf
    cases isB with
    | true =>
      have hm : number ∈ s.bounds.free := hnum
      have hlt : number < s.nV := by rw [← hs.nB]; exact hwB.lt_free hm
      exact (hB1.inactive number hlt (hwB.free _ hm)).1
    | false =>
      have hm : number ∈ s.cons.free := hnum
      have hlt : number < s.nC := by rw [← hs.nC]; exact hwC.lt_free hm
      exact (hC1.inactive number hlt (hwC.free _ hm)).1
  have hposLt : ∀ i < s.nV, i = s.posOf isB number → isB = true ∧ i = number := by
    intro i hi
    unfold posOf
    cases isB with
    | true => exact fun h => ⟨rfl, h⟩
    | false => intro h; exact absurd h (by simp only [Bool.false_eq_true, if_false]; omega)
  have hposGe : ∀ k < s.nC, s.nV + k = s.posOf isB number → isB = false ∧ k = number := by
    intro k hk
    unfold posOf
    cases isB with
    | false => intro h; simp only [Bool.false_eq_true, if_false] at h; exact ⟨rfl, by omega⟩
    | true =>
      have hm : number ∈ s.bounds.free := hnum
      have hlt : number < s.nV := by rw [← hs.nB]; exact hwB.lt_free hm
      intro h; simp only [if_true] at h; omega
  -- final multipliers
  have hfinal : ∀ yF : Nat → K, (∀ j, yF j = if j = s.posOf isB number then (if st = ST_LOWER then t else -t) else yb j) →
      ∀ i < s.nV, ∑ j ∈ range s.nV, s.Heff i j * s.x j + s.g i = yF i + ∑ k ∈ range s.nC, s.A k i * yF (s.nV + k) := by
    intro yF hyF i hi
    rw [h.opt.stat i hi]
    have g := hstat1 i hi
    have hval : t * e i = (if st = ST_LOWER then t else -t) * (if isB then (if i = number then 1 else 0) else s.A number i) := by
      rw [hE i hi]; split <;> ring
    rw [hval] at g
    have e1 : yF i = yb i + (if isB = true ∧ i = number then (if st = ST_LOWER then t else -t) else 0) := by
      rw [hyF]
      by_cases hp : i = s.posOf isB number
      · rw [if_pos hp, if_pos (hposLt i hi hp), hp, hpos0, zero_add]
      · rw [if_neg hp, if_neg, add_zero]
        rintro ⟨h1, h2⟩
        apply hp
        unfold posOf
        rw [if_pos h1, h2]
    have e2 : ∑ k ∈ range s.nC, s.A k i * yF (s.nV + k) = ∑ k ∈ range s.nC, s.A k i * yb (s.nV + k) +
        (if isB = true then 0 else s.A number i * (if st = ST_LOWER then t else -t)) := by
      have e3 : ∀ k ∈ range s.nC, s.A k i * yF (s.nV + k) = s.A k i * yb (s.nV + k) +
          (if k = number then (if isB = true then 0 else s.A number i * (if st = ST_LOWER then t else -t)) else 0) := by
        intro k hk
        rw [mem_range] at hk
        rw [hyF]
        by_cases hp : s.nV + k = s.posOf isB number
        · obtain ⟨h1, h2⟩ := hposGe k hk hp
          rw [if_pos hp, if_pos h2, if_neg (show ¬ isB = true by rw [h1]; decide), h2]
          have : yb (s.nV + number) = 0 := by rw [← h2, hp]; exact hpos0
          rw [this]; ring
        · rw [if_neg hp]
          by_cases hkn : k = number
          · rw [if_pos hkn, if_pos, add_zero]
            by_contra hb
            apply hp
            unfold posOf
            rw [if_neg hb, hkn]
          · rw [if_neg hkn, add_zero]
      rw [sum_congr rfl e3, sum_add_distrib]
      congr 1
      cases isB with
      | true => exact sum_eq_zero fun k _ => by split <;> rfl
      | false =>
        have hm : number ∈ s.cons.free := hnum
        have hlt : number < s.nC := by rw [← hs.nC]; exact hwC.lt_free hm
        rw [sum_ite_eq' (range s.nC) number, if_pos (mem_range.2 hlt)]
    rw [e1, e2]
    cases isB with
    | true =>
      simp only [true_and, if_true] at g ⊢
      by_cases hi' : i = number
      · rw [if_pos hi'] at g ⊢; linear_combination -g
      · rw [if_neg hi'] at g ⊢; linear_combination -g
    | false =>
      simp only [Bool.false_eq_true, false_and, if_false] at g ⊢
      linear_combination -g
  rcases hbb : bb with _ | k
  · -- a constraint leaves
    rw [hbb] at heq r2 d2
    have ht : t = t1 := by
      rcases d2 with ⟨_, e2⟩ | ⟨k, _, e1, _⟩
      · exact e2
      · cases e1
    rcases hbc : bc with _ | k
    · rw [hbc] at heq
      simp only [Option.isNone_none, Bool.and_self, if_true] at heq
      rw [hdrop] at heq
      simp only [Bool.false_eq_true, if_false, Res.ok.injEq, Prod.mk.injEq] at heq
      exact absurd heq.1 (by decide)
    · rw [hbc] at heq r1 d1 hremC
      simp only [Option.isNone_some, Option.isNone_none, Bool.false_and, Bool.false_eq_true, if_false] at heq
      rcases d1 with ⟨e1, _⟩ | ⟨q, hq, e1, _, hty, e2, _⟩
      · cases e1
      have hkq : k = s.cons.fx q := Option.some.inj e1
      have hkm : k ∈ s.cons.fixed := by rw [hkq]; exact WS.fx_mem hq
      have hkty : s.cons.type k ≠ ST_EQUALITY := by rw [hkq]; exact hty
      have hklt : k < s.nC := by rw [← hs.nC]; exact hwC.lt_fixed hkm
      have hkz : yb (s.nV + k) = 0 := by
        rw [y2 k hklt, hkq, hscC q hq, ht]
        rw [Nat.zero_add] at e2
        have e2 : s.y (s.nV + s.cons.fx q) = t1 * xiC q := e2
        rw [e2]; ring
      have hcl := hremC t1 k t rfl r2
      rw [Res.bind_eq_ok] at heq
      obtain ⟨⟨r, s2⟩, e3, heq⟩ := heq
      dsimp only at heq
      have hr : r = SUCCESSFUL_RETURN := by
        by_contra hr
        rw [if_pos hr] at heq
        simp only [Res.ok.injEq, Prod.mk.injEq] at heq
        exact absurd heq.1 (by decide)
      subst hr
      rw [if_neg (by simp)] at heq
      generalize hyN : updA yb (if isB = true then number else s.nV + number) (if st = ST_LOWER then t else -t) = yN at *
      have hkey : removeConstraintUpdate sq { s with y := yN } k true false none = .ok (SUCCESSFUL_RETURN, s2) := by
        unfold removeConstraint at e3
        split at e3
        · simp only [Res.ok.injEq, Prod.mk.injEq] at e3; exact absurd e3.1 (by decide)
        split at e3
        · simp only [Res.ok.injEq, Prod.mk.injEq] at e3; exact absurd e3.1 (by decide)
        split at e3
        · simp only [Res.ok.injEq, Prod.mk.injEq] at e3; exact absurd e3.1 (by decide)
        exact e3
      have hfa : ({ s with y := yN } : QPC K).Facs := h.facs.congr rfl rfl rfl rfl rfl rfl rfl rfl rfl rfl (fun x => x)
      obtain ⟨f1, f2 | ⟨f2, _⟩⟩ := removeConstraintUpdate_spec (s := { s with y := yN }) hfa hkm hcl hkey
      swap
      · cases f2
      have fs := f2.same
      obtain ⟨T, Q, R, fl, rfl⟩ := f2
      cases heq
      have hkp : s.nV + k ≠ s.posOf isB number := by
        intro hh
        obtain ⟨h1, h2⟩ := hposGe k hklt hh
        have hm : number ∈ s.cons.free := by rw [h1] at hnum; exact hnum
        rw [h2] at hkm
        exact hwC.disjoint hm hkm
      have hyF : ∀ j, updA yN (s.nV + k) 0 j = if j = s.posOf isB number then (if st = ST_LOWER then t else -t) else yb j := by
        intro j
        by_cases hj : j = s.nV + k
        · rw [hj, updA_same, if_neg hkp, hkz]
        · rw [updA_ne _ _ hj, ← hyN]
          by_cases hj' : j = s.posOf isB number
          · rw [if_pos hj', hj']; exact updA_same _ _ _
          · rw [if_neg hj']; exact updA_ne _ _ hj'
      have hy0 : updA (updA yN (s.nV + k) 0) (s.posOf isB number) 0 = yb := by
        funext j
        by_cases hj' : j = s.posOf isB number
        · rw [hj', updA_same, hpos0]
        · rw [updA_ne _ _ hj', hyF, if_neg hj']
      have hnz : s.nZ < s.nFR - (s.cons.moveFixedToFree k).nFX := by
        rw [WS.nFX_moveFixedToFree hkm]
        have h1 : 0 < s.cons.nFX := List.length_pos_of_mem hkm
        have h2 := h.facs.tq.le
        have h3 : s.nZ = s.nFR - s.nAC := rfl
        have h4 : s.nAC = s.cons.nFX := rfl
        omega
      refine ⟨⟨?_, ?_, h.ax, hfinal _ hyF, ?_, ?_⟩, ?_, rfl, rfl, rfl, rfl, rfl, fun i hi => hi, fun i hi => ?_, ⟨t, p2, ?_⟩⟩
      · exact f1.congr rfl rfl rfl rfl rfl rfl rfl rfl rfl rfl (fun x => x)
      · exact lt_of_le_of_lt (Nat.zero_le _) hnz
      · show SideOK s.bounds _ s.x s.lb s.ub (updA (updA yN (s.nV + k) 0) (s.posOf isB number) 0) s.nV
        rw [hy0]; exact hB1
      · show SideOK (s.cons.moveFixedToFree k) _ (s.prodA s.x) s.lbA s.ubA (fun j => updA (updA yN (s.nV + k) 0) (s.posOf isB number) 0 (s.nV + j)) s.nC
        rw [hy0]
        exact hC1.remove hwC hs.nC hkm hkty hkz (fun _ _ _ => rfl)
      · exact ⟨rfl, rfl, rfl, rfl, rfl, rfl, rfl, rfl, rfl, rfl, rfl, rfl, rfl, rfl, rfl⟩
      · exact List.mem_append_left _ hi
      · show updA yN (s.nV + k) 0 (s.posOf isB number) = _
        rw [hyF, if_pos rfl]
  · -- a bound leaves
    rw [hbb] at heq r2 d2
    rw [Option.isNone_some, Bool.and_false] at heq
    simp only [Bool.false_eq_true, if_false] at heq
    rcases d2 with ⟨e1, _⟩ | ⟨q, hq, e1, _, hty, e2, _⟩
    · cases e1
    have hkq : k = s.bounds.fx q := Option.some.inj e1
    have hkm : k ∈ s.bounds.fixed := by rw [hkq]; exact WS.fx_mem hq
    have hkty : s.bounds.type k ≠ ST_EQUALITY := by rw [hkq]; exact hty
    have hklt : k < s.nV := by rw [← hs.nB]; exact hwB.lt_fixed hkm
    have hkz : yb k = 0 := by
      rw [y1 k hklt, hkq, hscB q hq]
      rw [Nat.zero_add] at e2
      have e2 : s.y (s.bounds.fx q) = t * xiB q := e2
      rw [e2]; ring
    have hcl := hremB t1 bc t k rfl r2
    rw [Res.bind_eq_ok] at heq
    obtain ⟨⟨r, s2⟩, e3, heq⟩ := heq
    dsimp only at heq
    have hr : r = SUCCESSFUL_RETURN := by
      by_contra hr
      rw [if_pos hr] at heq
      simp only [Res.ok.injEq, Prod.mk.injEq] at heq
      exact absurd heq.1 (by decide)
    subst hr
    rw [if_neg (by simp)] at heq
    generalize hyN : updA yb (if isB = true then number else s.nV + number) (if st = ST_LOWER then t else -t) = yN at *
    have hkey : removeBoundUpdate sq { s with y := yN } k true false none = .ok (SUCCESSFUL_RETURN, s2) := by
      unfold removeBound at e3
      split at e3
      · simp only [Res.ok.injEq, Prod.mk.injEq] at e3; exact absurd e3.1 (by decide)
      split at e3
      · simp only [Res.ok.injEq, Prod.mk.injEq] at e3; exact absurd e3.1 (by decide)
      exact e3
    have hfa : ({ s with y := yN } : QPC K).Facs := h.facs.congr rfl rfl rfl rfl rfl rfl rfl rfl rfl rfl (fun x => x)
    obtain ⟨f1, f2 | ⟨f2, _⟩⟩ := removeBoundUpdate_spec (s := { s with y := yN }) hfa hkm hcl hkey
    swap
    · cases f2
    have fs := f2.same
    obtain ⟨T, Q, R, fl, rfl⟩ := f2
    cases heq
    have hkp : k ≠ s.posOf isB number := by
      intro hh
      obtain ⟨h1, h2⟩ := hposLt k hklt hh
      have hm : number ∈ s.bounds.free := by rw [h1] at hnum; exact hnum
      rw [h2] at hkm
      exact hwB.disjoint hm hkm
    have hyF : ∀ j, updA yN k 0 j = if j = s.posOf isB number then (if st = ST_LOWER then t else -t) else yb j := by
      intro j
      by_cases hj : j = k
      · rw [hj, updA_same, if_neg hkp, hkz]
      · rw [updA_ne _ _ hj, ← hyN]
        by_cases hj' : j = s.posOf isB number
        · rw [if_pos hj', hj']; exact updA_same _ _ _
        · rw [if_neg hj']; exact updA_ne _ _ hj'
    have hy0 : updA (updA yN k 0) (s.posOf isB number) 0 = yb := by
      funext j
      by_cases hj' : j = s.posOf isB number
      · rw [hj', updA_same, hpos0]
      · rw [updA_ne _ _ hj', hyF, if_neg hj']
    have hnz : s.nZ < (s.bounds.moveFixedToFree k).nFR - s.nAC := by
      rw [show (s.bounds.moveFixedToFree k).nFR = s.bounds.nFR + 1 from QPB.nFR_moveFixedToFree _ _]
      have h2 := h.facs.tq.le
      have h3 : s.nZ = s.nFR - s.nAC := rfl
      have h4 : s.nFR = s.bounds.nFR := rfl
      omega
    refine ⟨⟨?_, ?_, h.ax, hfinal _ hyF, ?_, ?_⟩, ?_, rfl, rfl, rfl, rfl, rfl, fun i hi => ?_, fun i hi => hi, ⟨t, p2, ?_⟩⟩
    · exact f1.congr rfl rfl rfl rfl rfl rfl rfl rfl rfl rfl (fun x => x)
    · exact lt_of_le_of_lt (Nat.zero_le _) hnz
    · show SideOK (s.bounds.moveFixedToFree k) _ s.x s.lb s.ub (updA (updA yN k 0) (s.posOf isB number) 0) s.nV
      rw [hy0]
      exact hB1.remove hwB hs.nB hkm hkty hkz (fun _ _ _ => rfl)
    · show SideOK s.cons _ (s.prodA s.x) s.lbA s.ubA (fun j => updA (updA yN k 0) (s.posOf isB number) 0 (s.nV + j)) s.nC
      rw [hy0]
      exact hC1
    · exact ⟨rfl, rfl, rfl, rfl, rfl, rfl, rfl, rfl, rfl, rfl, rfl, rfl, rfl, rfl, rfl⟩
    · exact List.mem_append_left _ hi
    · show updA yN k 0 (s.posOf isB number) = _
      rw [hyF, if_pos rfl]

/-! ### additions -/

/-- Options for which the solver is meant to be used. -/
structure OptionsOK (o : Options K) : Prop where
  epsNum : o.epsNum ≤ 0
  epsDen : 0 ≤ o.epsDen
  refSteps : 0 ≤ o.numRefinementSteps
  iterRef : 0 < o.epsIterRef ∨ o.numRefinementSteps ≤ 0
  jump : 0 ≤ o.maxDualJump
  drop : o.enableDropInfeasibles = false

/-- Sign of the multiplier of a member entering at its lower or upper limit -/
def dirSign (st : SubjectToStatus) : K := if st = ST_LOWER then 1 else -1

/-- Adding a constraint is exact: the test for linear independence decides it, and the exchange of members, the rotations and the roots are
exact. -/
structure CleanInC (sq : K → K) (s : QPC K) (number : Nat) (st : SubjectToStatus) : Prop where
  indep : s.checkLIConstraint number = .ok true → 0 < s.nZ
  dep : s.checkLIConstraint number = .ok false → ∀ j < s.nZ, ∑ r ∈ range s.nFR, s.A number (s.fr r) * s.Q (s.fr r) j = 0
  resolve : s.checkLIConstraint number = .ok false → ∀ xiC,
    s.coeffC (fun i => sumTo (fun j => s.Q (s.fr j) (s.nZ + i) * (dirSign st * s.A number (s.fr j))) s.nFR) = some xiC →
    CleanResolve sq s xiC (fun i => dirSign st * s.A number (s.fx i) - sumTo (fun k => s.A (s.ac k) (s.fx i) * xiC k) s.nAC)
  upd : ∀ s', ensureLIConstraint sq s number st = .ok (SUCCESSFUL_RETURN, s') → s'.CleanAddC sq number true

/-- Adding a bound is exact. -/
structure CleanInB (sq : K → K) (s : QPC K) (number : Nat) (st : SubjectToStatus) : Prop where
  indep : s.checkLIBound number = .ok true → 0 < s.nZ
  dep : s.checkLIBound number = .ok false → ∀ j < s.nZ, s.Q number j = 0
  resolve : s.checkLIBound number = .ok false → ∀ xiC, s.coeffC (fun i => dirSign st * s.Q number (s.nZ + i)) = some xiC →
    CleanResolve sq s xiC (fun i => -sumTo (fun k => s.A (s.ac k) (s.fx i) * xiC k) s.nAC)
  upd : ∀ s', ensureLIBound sq s number st = .ok (SUCCESSFUL_RETURN, s') → s'.CleanAddB sq number true

theorem ensureLIConstraint_spec {sq : K → K} {s s' : QPC K} (h : s.Good) (hO : OptionsOK s.options) {number : Nat} {st : SubjectToStatus}
    (hm : number ∈ s.cons.free) (hc : CleanInC sq s number st)
    (heq : ensureLIConstraint sq s number st = .ok (SUCCESSFUL_RETURN, s')) : Resolved s' s false number st := by
  have hs := h.facs.shape
  have hlt : number < s.nC := by rw [← hs.nC]; exact hs.okC.lt_free hm
  unfold ensureLIConstraint at heq
  rw [Res.bind_eq_ok] at heq
  obtain ⟨b, hb, heq⟩ := heq
  cases b with
  | true =>
    simp only [if_true] at heq
    cases heq
    have hy : s.y (s.nV + number) = 0 := (h.opt.cons.inactive number hlt (hs.okC.free _ hm)).1
    refine ⟨h.ready (hc.indep hb) hy, Same.refl s, rfl, rfl, rfl, rfl, rfl, fun i hi => hi, fun i hi => hi, ⟨0, le_refl _, ?_⟩⟩
    show s.y (s.nV + number) = _
    rw [hy, neg_zero]; split <;> rfl
  | false =>
    simp only [Bool.false_eq_true, if_false] at heq
    change (match s.coeffC (fun i => sumTo (fun j => s.Q (s.fr j) (s.nZ + i) * (dirSign st * s.A number (s.fr j))) s.nFR) with
      | none => _ | some xiC => _) = _ at heq
    have hres := hc.resolve hb
    cases hx : s.coeffC (fun i => sumTo (fun j => s.Q (s.fr j) (s.nZ + i) * (dirSign st * s.A number (s.fr j))) s.nFR) with
    | none =>
      rw [hx] at heq
      simp only [Res.ok.injEq, Prod.mk.injEq] at heq
      exact absurd heq.1 (by decide)
    | some xiC =>
      rw [hx] at heq
      have hco := coeffC_spec h.facs.pos hx
      refine resolveLI_spec (e := fun i => dirSign st * s.A number i) h hO.epsNum hO.epsDen hO.jump hO.drop
        (lidep_of h.facs ?_ ?_ ?_) (by simpa using hm) (fun i _ => rfl) (hres xiC hx) heq
      · intro j hj
        have := hc.dep hb j hj
        simp only [mul_assoc]
        rw [← mul_sum, this, mul_zero]
      · intro c hcc
        rw [← hco c hcc, sumTo_eq]
      · intro i _
        rw [sumTo_eq]

theorem ensureLIBound_spec {sq : K → K} {s s' : QPC K} (h : s.Good) (hO : OptionsOK s.options) {number : Nat} {st : SubjectToStatus}
    (hm : number ∈ s.bounds.free) (hc : CleanInB sq s number st)
    (heq : ensureLIBound sq s number st = .ok (SUCCESSFUL_RETURN, s')) : Resolved s' s true number st := by
  have hs := h.facs.shape
  have hw := hs.okB
  have hlt : number < s.nV := by rw [← hs.nB]; exact hs.okB.lt_free hm
  unfold ensureLIBound at heq
  rw [Res.bind_eq_ok] at heq
  obtain ⟨b, hb, heq⟩ := heq
  cases b with
  | true =>
    simp only [if_true] at heq
    cases heq
    have hy : s.y number = 0 := (h.opt.bounds.inactive number hlt (hs.okB.free _ hm)).1
    refine ⟨h.ready (hc.indep hb) hy, Same.refl s, rfl, rfl, rfl, rfl, rfl, fun i hi => hi, fun i hi => hi, ⟨0, le_refl _, ?_⟩⟩
    show s.y number = _
    rw [hy, neg_zero]; split <;> rfl
  | false =>
    simp only [Bool.false_eq_true, if_false] at heq
    change (match s.coeffC (fun i => dirSign st * s.Q number (s.nZ + i)) with | none => _ | some xiC => _) = _ at heq
    have hres := hc.resolve hb
    cases hx : s.coeffC (fun i => dirSign st * s.Q number (s.nZ + i)) with
    | none =>
      rw [hx] at heq
      simp only [Res.ok.injEq, Prod.mk.injEq] at heq
      exact absurd heq.1 (by decide)
    | some xiC =>
      rw [hx] at heq
      have hco := coeffC_spec h.facs.pos hx
      have hk := WS.idxOf_fr_lt hm
      have hik : s.fr (s.bounds.free.idxOf number) = number := WS.fr_idxOf hm
      have hsum : ∀ f : Nat → K, ∑ r ∈ range s.nFR, f (s.fr r) * (dirSign st * if s.fr r = number then 1 else 0) = dirSign st * f number := by
        intro f
        rw [sum_eq_single (s.bounds.free.idxOf number)]
        · rw [hik, if_pos rfl]; ring
        · intro r hr hne
          rw [if_neg, mul_zero, mul_zero]
          intro e
          rw [← hik] at e
          exact hne (hw.fr_inj (mem_range.1 hr) hk e)
        · intro hr; exact absurd (mem_range.2 hk) hr
      refine resolveLI_spec (e := fun i => dirSign st * if i = number then 1 else 0) h hO.epsNum hO.epsDen hO.jump hO.drop
        (lidep_of h.facs ?_ ?_ ?_) (by simpa using hm) (fun i _ => rfl) (hres xiC hx) heq
      · intro j hj
        rw [sum_congr rfl fun r _ => mul_comm _ _, hsum (fun i => s.Q i j), hc.dep hb j hj, mul_zero]
      · intro c hcc
        rw [← hco c hcc, hsum (fun i => s.Q i (s.nZ + c))]
      · intro i hi
        rw [sumTo_eq, if_neg, mul_zero, zero_sub]
        intro e
        have : number ∈ s.bounds.fixed := by rw [← e]; exact WS.fx_mem hi
        exact hw.disjoint hm this

theorem signs_of {t v : K} (ht : 0 ≤ t) {st : SubjectToStatus} (h : v = if st = ST_LOWER then t else -t) :
    (st = ST_LOWER → 0 ≤ v) ∧ (st = ST_UPPER → v ≤ 0) := by
  constructor
  · intro e; rw [h, if_pos e]; exact ht
  · intro e; rw [h, if_neg (by rw [e]; decide)]; linarith

theorem resolveLI_ne_dropped {sq : K → K} {s s' : QPC K} (hdrop : s.options.enableDropInfeasibles = false) {number : Nat} {st : SubjectToStatus}
    {isB : Bool} {xiC xiB : Nat → K} (heq : resolveLI sq s number st isB xiC xiB = .ok (RET_ENSURELI_DROPPED, s')) : False := by
  unfold resolveLI at heq
  dsimp only at heq
  rw [Res.bind_eq_ok] at heq
  obtain ⟨⟨t1, bc⟩, _, heq⟩ := heq
  dsimp only at heq
  rw [Res.bind_eq_ok] at heq
  obtain ⟨⟨t, bb⟩, _, heq⟩ := heq
  dsimp only at heq
  rw [hdrop] at heq
  split at heq
  · simp only [Bool.false_eq_true, if_false, Res.ok.injEq, Prod.mk.injEq] at heq
    exact absurd heq.1 (by decide)
  · split at heq
    · rw [Res.bind_eq_ok] at heq
      obtain ⟨⟨r, s2⟩, _, heq⟩ := heq
      dsimp only at heq
      split at heq <;> · simp only [Res.ok.injEq, Prod.mk.injEq] at heq; exact absurd heq.1 (by decide)
    · rw [Res.bind_eq_ok] at heq
      obtain ⟨⟨r, s2⟩, _, heq⟩ := heq
      dsimp only at heq
      split at heq <;> · simp only [Res.ok.injEq, Prod.mk.injEq] at heq; exact absurd heq.1 (by decide)
    · simp only [Res.ok.injEq, Prod.mk.injEq] at heq; exact absurd heq.1 (by decide)

theorem addConstraint_spec {sq : K → K} {s s' : QPC K} (h : s.Good) (hO : OptionsOK s.options) {number : Nat} {st : SubjectToStatus}
    (hst : st = ST_LOWER ∨ st = ST_UPPER) (hm : number ∈ s.cons.free) (hty : s.cons.type number ≠ ST_EQUALITY)
    (hl : st = ST_LOWER → s.prodA s.x number = s.lbA number) (hu : st = ST_UPPER → s.prodA s.x number = s.ubA number)
    (hc : CleanInC sq s number st) (heq : addConstraint sq s number st = .ok (SUCCESSFUL_RETURN, s')) : s'.Good ∧ Same s' s := by
  unfold addConstraint at heq
  cases hck : s.addConstraintCheck number with
  | some r =>
    rw [hck] at heq
    simp only [Res.ok.injEq, Prod.mk.injEq] at heq
    unfold addConstraintCheck at hck
    rw [heq.1] at hck
    split at hck
    · cases hck
    split at hck
    · cases hck
    split at hck
    · cases hck
    · cases hck
  | none =>
    rw [hck] at heq
    dsimp only at heq
    rw [Res.bind_eq_ok] at heq
    obtain ⟨⟨r, s1⟩, e1, heq⟩ := heq
    dsimp only at heq
    split at heq
    · next hr =>
      subst hr
      have hr := ensureLIConstraint_spec h hO hm hc e1
      obtain ⟨t, ht, hsg⟩ := hr.sign
      obtain ⟨g1, g2⟩ := signs_of ht hsg
      have hsA : s1.prodA s1.x number = s.prodA s.x number := by
        rw [prodA_eq, prodA_eq, hr.same.nV, hr.same.A, hr.x]
      obtain ⟨s2, e2, f1, f2⟩ := hr.ready.addC (sq := sq) (hr.freeC _ hm) (by rw [hr.same.typeC]; exact hty) hst
        (fun e => ⟨by rw [hsA, hr.lbA]; exact hl e, g1 e⟩) (fun e => ⟨by rw [hsA, hr.ubA]; exact hu e, g2 e⟩) (hc.upd s1 e1)
      rw [e2] at heq
      cases heq
      exact ⟨f1, f2.trans hr.same⟩
    split at heq
    · simp only [Res.ok.injEq, Prod.mk.injEq] at heq; exact absurd heq.1 (by decide)
    split at heq
    · next hr =>
      subst hr
      exfalso
      unfold ensureLIConstraint at e1
      rw [Res.bind_eq_ok] at e1
      obtain ⟨b, hb, e1⟩ := e1
      split at e1
      · simp only [Res.ok.injEq, Prod.mk.injEq] at e1; exact absurd e1.1 (by decide)
      · dsimp only at e1
        split at e1
        · simp only [Res.ok.injEq, Prod.mk.injEq] at e1; exact absurd e1.1 (by decide)
        · exact resolveLI_ne_dropped hO.drop e1
    · simp only [Res.ok.injEq, Prod.mk.injEq] at heq; exact absurd heq.1 (by decide)

theorem addBound_spec {sq : K → K} {s s' : QPC K} (h : s.Good) (hO : OptionsOK s.options) {number : Nat} {st : SubjectToStatus}
    (hst : st = ST_LOWER ∨ st = ST_UPPER) (hm : number ∈ s.bounds.free) (hty : s.bounds.type number ≠ ST_EQUALITY)
    (hl : st = ST_LOWER → s.x number = s.lb number) (hu : st = ST_UPPER → s.x number = s.ub number)
    (hc : CleanInB sq s number st) (heq : addBound sq s number st = .ok (SUCCESSFUL_RETURN, s')) : s'.Good ∧ Same s' s := by
  unfold addBound at heq
  cases hck : s.addBoundCheck number with
  | some r =>
    rw [hck] at heq
    simp only [Res.ok.injEq, Prod.mk.injEq] at heq
    unfold addBoundCheck at hck
    rw [heq.1] at hck
    split at hck
    · cases hck
    split at hck
    · cases hck
    split at hck
    · cases hck
    · cases hck
  | none =>
    rw [hck] at heq
    dsimp only at heq
    rw [Res.bind_eq_ok] at heq
    obtain ⟨⟨r, s1⟩, e1, heq⟩ := heq
    dsimp only at heq
    split at heq
    · next hr =>
      subst hr
      have hr := ensureLIBound_spec h hO hm hc e1
      obtain ⟨t, ht, hsg⟩ := hr.sign
      obtain ⟨g1, g2⟩ := signs_of ht hsg
      obtain ⟨s2, e2, f1, f2⟩ := Ready.addB (sq := sq) (number := number) hr.ready (hr.freeB _ hm) (by rw [hr.same.typeB]; exact hty) hst
        (fun e => ⟨by rw [hr.x, hr.lb]; exact hl e, g1 e⟩) (fun e => ⟨by rw [hr.x, hr.ub]; exact hu e, g2 e⟩) (hc.upd s1 e1)
      rw [e2] at heq
      cases heq
      exact ⟨f1, f2.trans hr.same⟩
    split at heq
    · simp only [Res.ok.injEq, Prod.mk.injEq] at heq; exact absurd heq.1 (by decide)
    split at heq
    · next hr =>
      subst hr
      exfalso
      unfold ensureLIBound at e1
      rw [Res.bind_eq_ok] at e1
      obtain ⟨b, hb, e1⟩ := e1
      split at e1
      · simp only [Res.ok.injEq, Prod.mk.injEq] at e1; exact absurd e1.1 (by decide)
      · dsimp only at e1
        split at e1
        · simp only [Res.ok.injEq, Prod.mk.injEq] at e1; exact absurd e1.1 (by decide)
        · exact resolveLI_ne_dropped hO.drop e1
    · simp only [Res.ok.injEq, Prod.mk.injEq] at heq; exact absurd heq.1 (by decide)

end QPC
end QpOASES
