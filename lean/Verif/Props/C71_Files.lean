import Verif.Model.FromFile
import Verif.Props.C47_C48_Files
import Verif.Props.C54_NewMatrices

/-!
C71: `init` and `hotstart` with data read from files.
-/
namespace QpOASES.Props
open ReturnValue SubjectToStatus HessianType QProblemStatus

set_option linter.unusedSectionVars false

variable {K : Type} [Field K] [LinearOrder K] [IsStrictOrderedRing K]

/-- The array with the numbers of the list -/
def arr (vs : List K) : Nat → K := fun i => vs.getD i 0

/-- The pointer passed by a caller who has read the file: null if no file is named, else an array with the first `n` numbers of the file,
which has at least that many. -/
inductive Holding (n : Nat) : FileArg K → Option (Nat → K) → Prop
  | null : Holding n none none
  | file (vs : List K) (rest : TextFile K) : vs.length = n → Holding n (some (some (vs.map some ++ rest))) (some (arr vs))

/-- The file named cannot be opened, or it has something that is not a number before the `n`-th number. -/
inductive Unreadable (n : Nat) : FileArg K → Prop
  | missing : Unreadable n (some none)
  | garbled (vs : List K) (rest : TextFile K) : vs.length < n → Unreadable n (some (some (vs.map some ++ none :: rest)))

/-- Everything except a file that ends too early -/
def Orderly (n : Nat) (f : FileArg K) : Prop := (∃ a, Holding n f a) ∨ Unreadable n f

theorem readOver_numbers {d : Mem K} {nrow ncol : Nat} (hd : d.size = nrow * ncol) (hc : ∀ i, nrow * ncol ≤ i → d.cell i = none)
    {vs : List K} (hl : vs.length = nrow * ncol) (rest : TextFile K) :
    readOver d nrow ncol (some (vs.map some ++ rest)) = .ok (SUCCESSFUL_RETURN, arr vs) := by
  unfold readOver
  rw [(C47_read_partial d nrow ncol hd.ge).1 vs rest hl]
  simp only [Res.bind_ok, patch, Nat.zero_le, Nat.zero_add, true_and, Nat.sub_zero, Res.ok.injEq, Prod.mk.injEq]
  funext i
  unfold arr
  by_cases h : i < vs.length
  · rw [if_pos h, List.getD_eq_getElem?_getD]
  · rw [if_neg h, hc i (by omega), List.getD_eq_getElem?_getD, List.getElem?_eq_none (by omega)]

theorem readOver_unreadable {d : Mem K} {nrow ncol n : Nat} (hd : d.size = nrow * ncol) (hn : n = nrow * ncol) {f : Option (TextFile K)}
    (h : Unreadable n (some f)) : ∃ r v, readOver d nrow ncol f = .ok (r, v) ∧ r ≠ SUCCESSFUL_RETURN := by
  subst hn
  cases h with
  | missing => exact ⟨_, _, rfl, by decide⟩
  | garbled vs rest hl =>
    obtain ⟨d', e⟩ := (C47_read_partial d nrow ncol hd.ge).2.1 vs rest hl
    refine ⟨RET_UNABLE_TO_READ_FILE, fun i => (d'.cell i).getD 0, ?_, by decide⟩
    unfold readOver
    rw [e]
    rfl

theorem alloc_none {n : Nat} : ∀ i, n ≤ i → (Mem.alloc n : Mem K).cell i = none := fun _ _ => rfl

theorem memOf_none {n : Nat} (v : Nat → K) : ∀ i, n ≤ i → (memOf n v).cell i = none := fun _ h => if_neg (by omega)

theorem loadVector_holding {n : Nat} {f : FileArg K} {a : Option (Nat → K)} (h : Holding n f a) : loadVector n f = .ok (SUCCESSFUL_RETURN, a) := by
  cases h with
  | null => rfl
  | file vs rest hl =>
    simp only [loadVector]
    rw [readOver_numbers (by simp [Mem.alloc]) (by simpa using alloc_none) (by simpa using hl)]
    rfl

theorem loadVector_unreadable {n : Nat} {f : FileArg K} (h : Unreadable n f) :
    ∃ r v, loadVector n f = .ok (r, some v) ∧ r ≠ SUCCESSFUL_RETURN := by
  cases f with
  | none => cases h
  | some f =>
    obtain ⟨r, v, e, hr⟩ := readOver_unreadable (d := Mem.alloc n) (nrow := n) (ncol := 1) (by simp [Mem.alloc]) (by simp) h
    exact ⟨r, v, by simp only [loadVector]; rw [e]; rfl, hr⟩

theorem readLimits_holding {n : Nat} {f : FileArg K} {a : Option (Nat → K)} (old : Nat → K) (inf : K) (h : Holding n f a) :
    readLimits n old inf f = .ok (SUCCESSFUL_RETURN, a.getD fun _ => inf) := by
  cases h with
  | null => rfl
  | file vs rest hl =>
    simp only [readLimits]
    rw [readOver_numbers (by simp [memOf]) (by simpa using memOf_none old) (by simpa using hl)]
    rfl

theorem readLimits_unreadable {n : Nat} {f : FileArg K} (old : Nat → K) (inf : K) (h : Unreadable n f) :
    ∃ r v, readLimits n old inf f = .ok (r, v) ∧ r ≠ SUCCESSFUL_RETURN := by
  cases f with
  | none => cases h
  | some f =>
    obtain ⟨r, v, e, hr⟩ := readOver_unreadable (d := memOf n old) (nrow := n) (ncol := 1) (by simp [memOf]) (by simp) h
    exact ⟨r, v, e, hr⟩

/-! ### The array variants' view -/

theorem setupQPdataFromFile_eqB (s : QPB K) {fH fg fl fu : FileArg K} {H l u : Option (Nat → K)} {g : Nat → K}
    (hH : Holding (s.nV * s.nV) fH H) (hg : Holding s.nV fg (some g)) (hl : Holding s.nV fl l) (hu : Holding s.nV fu u) :
    s.setupQPdataFromFile fH fg fl fu = .ok (s.setupQPdata H (some g) l u) := by
  have hset : ∀ h : Option (Nat → K), (s.setH h).nV = s.nV := by
    intro h; unfold QPB.setH; split <;> [split; skip] <;> rfl
  unfold QPB.setupQPdataFromFile
  cases hg with
  | file vs rest h =>
    have key : ∀ t : QPB K, t.nV = s.nV → (do
        let (r, v) ← readOver (memOf t.nV t.g) t.nV 1 (some (vs.map some ++ rest))
        let s := { t with g := v }
        if r ≠ SUCCESSFUL_RETURN then Res.ok (r, s) else do
        let (r, v) ← readLimits s.nV s.lb (-INFTY) fl
        let s := { s with lb := v }
        if r ≠ SUCCESSFUL_RETURN then .ok (r, s) else do
        let (r, v) ← readLimits s.nV s.ub INFTY fu
        .ok (r, { s with ub := v }) : Res (ReturnValue × QPB K)) =
        .ok (SUCCESSFUL_RETURN, { t with
          g := arr vs
          lb := QPB.lowerOf l
          ub := QPB.upperOf u }) := by
      intro t ht
      rw [readOver_numbers (by simp [memOf]) (by simpa using memOf_none t.g) (by simpa [ht] using h)]
      simp only [Res.bind_ok, ne_eq, not_true, if_false]
      rw [ht, readLimits_holding _ _ hl]
      simp only [Res.bind_ok, not_true, if_false]
      rw [readLimits_holding _ _ hu]
      rfl
    cases hH with
    | null => exact key _ (hset none)
    | file vs' rest' h' =>
      dsimp only
      rw [readOver_numbers rfl alloc_none h']
      exact key _ (hset _)

theorem setupQPdata_nVB (s : QPB K) (H g l u : Option (Nat → K)) : (s.setupQPdata H g l u).2.nV = s.nV := by
  unfold QPB.setupQPdata QPB.setH
  cases H <;> cases g <;> dsimp only <;> first | rfl | (split <;> rfl)

theorem setupQPdataFromFile_eq (s : QPC K) {fH fg fA fl fu flA fuA : FileArg K} {H A l u lA uA : Option (Nat → K)} {g : Nat → K}
    (hH : Holding (s.nV * s.nV) fH H) (hg : Holding s.nV fg (some g)) (hl : Holding s.nV fl l) (hu : Holding s.nV fu u)
    (hA : s.nC > 0 → Holding (s.nC * s.nV) fA A ∧ A ≠ none ∧ Holding s.nC flA lA ∧ Holding s.nC fuA uA) :
    s.setupQPdataFromFile fH fg fA fl fu flA fuA = .ok (s.setupQPdata H (some g) A l u lA uA) := by
  unfold QPC.setupQPdataFromFile QPC.setupQPdata
  rw [setupQPdataFromFile_eqB s.toQPB hH hg hl hu]
  have hn := setupQPdata_nVB s.toQPB H (some g) l u
  have hr : (s.toQPB.setupQPdata H (some g) l u).1 = SUCCESSFUL_RETURN := rfl
  generalize s.toQPB.setupQPdata H (some g) l u = p at hn hr
  obtain ⟨r, b⟩ := p
  dsimp only at hn hr
  subst hr
  simp only [Res.bind_ok, ne_eq, not_true, if_false]
  by_cases h0 : s.nC = 0
  · rw [if_pos h0, if_pos h0]
  · rw [if_neg h0, if_neg h0]
    obtain ⟨kA, kn, kl, ku⟩ := hA (by omega)
    cases kA with
    | null => exact absurd rfl kn
    | file vs rest h =>
      dsimp only
      rw [readLimits_holding _ _ kl]
      simp only [Res.bind_ok, not_true, if_false]
      rw [readLimits_holding _ _ ku]
      simp only [Res.bind_ok, not_true, if_false]
      rw [hn, readOver_numbers rfl alloc_none h]
      rfl

theorem setupQPdata_success (s : QPC K) {H A l u lA uA : Option (Nat → K)} {g : Nat → K} (hA : s.nC > 0 → A ≠ none) :
    (s.setupQPdata H (some g) A l u lA uA).1 = SUCCESSFUL_RETURN := by
  unfold QPC.setupQPdata
  have hr : (s.toQPB.setupQPdata H (some g) l u).1 = SUCCESSFUL_RETURN := rfl
  generalize s.toQPB.setupQPdata H (some g) l u = p at hr
  obtain ⟨r, b⟩ := p
  dsimp only at hr
  subst hr
  simp only [ne_eq, not_true, if_false]
  by_cases h0 : s.nC = 0
  · rw [if_pos h0]
  · rw [if_neg h0]
    cases A with
    | none => exact absurd rfl (hA (by omega))
    | some a => rfl

/-- **C71** (initialisation, bounds only): with readable files `init` does exactly what it does with arrays holding their numbers. -/
theorem C71_initB (sq : K → K) (fuel : Nat) (s : QPB K) {fH fg fl fu : FileArg K} {H l u : Option (Nat → K)} {g : Nat → K}
    (hH : Holding (s.nV * s.nV) fH H) (hg : Holding s.nV fg (some g)) (hl : Holding s.nV fl l) (hu : Holding s.nV fu u)
    (nWSR : Int) (cputime : Option K) (xOpt yOpt : Option (Nat → K)) (guess : Option WS) :
    s.initFile sq fuel fH fg fl fu nWSR cputime xOpt yOpt guess none = s.init sq fuel H (some g) l u nWSR cputime xOpt yOpt guess none := by
  unfold QPB.initFile QPB.init
  split
  · rfl
  · have hn : (if s.status ≠ QPS_NOTINITIALISED then s.reset else s).nV = s.nV := by split <;> rfl
    generalize (if s.status ≠ QPS_NOTINITIALISED then s.reset else s) = t at hn
    rw [← hn] at hH hg hl hu
    dsimp only
    rw [setupQPdataFromFile_eqB t hH hg hl hu]
    split
    · rfl
    · split
      · rfl
      · rfl

/-- **C71** (initialisation): with readable files `init` does exactly what it does with arrays holding their numbers. -/
theorem C71_init (sq : K → K) (fuel : Nat) (s : QPC K) {fH fg fA fl fu flA fuA : FileArg K} {H A l u lA uA : Option (Nat → K)} {g : Nat → K}
    (hH : Holding (s.nV * s.nV) fH H) (hg : Holding s.nV fg (some g)) (hl : Holding s.nV fl l) (hu : Holding s.nV fu u)
    (hA : s.nC > 0 → Holding (s.nC * s.nV) fA A ∧ A ≠ none ∧ Holding s.nC flA lA ∧ Holding s.nC fuA uA)
    (nWSR : Int) (cputime : Option K) (xOpt yOpt : Option (Nat → K)) (gB gC : Option WS) :
    s.initFile sq fuel fH fg fA fl fu flA fuA nWSR cputime xOpt yOpt gB gC none =
      s.init sq fuel H (some g) A l u lA uA nWSR cputime xOpt yOpt gB gC none := by
  unfold QPC.initFile QPC.init
  split
  · rfl
  · have hn : (if s.status ≠ QPS_NOTINITIALISED then s.reset else s).nV = s.nV := by split <;> rfl
    have hm : (if s.status ≠ QPS_NOTINITIALISED then s.reset else s).nC = s.nC := by split <;> rfl
    generalize (if s.status ≠ QPS_NOTINITIALISED then s.reset else s) = t at hn hm
    rw [← hn] at hH hg hl hu hA
    rw [← hm] at hA
    dsimp only
    rw [setupQPdataFromFile_eq t hH hg hl hu hA]
    have hr := setupQPdata_success t (H := H) (g := g) (A := A) (l := l) (u := u) (lA := lA) (uA := uA) fun h => (hA h).2.1
    generalize t.setupQPdata H (some g) A l u lA uA = p at hr
    obtain ⟨r, t'⟩ := p
    dsimp only at hr
    subst hr
    split
    · rfl
    · split
      · rfl
      · split
        · rfl
        · rfl

theorem loadVectors_holding {n : Nat} {fg fl fu : FileArg K} {l u : Option (Nat → K)} {g : Nat → K}
    (hg : Holding n fg (some g)) (hl : Holding n fl l) (hu : Holding n fu u) :
    QPB.loadQPvectorsFromFile n fg fl fu = .ok (SUCCESSFUL_RETURN, some g, l, u) := by
  unfold QPB.loadQPvectorsFromFile
  rw [loadVector_holding hg, loadVector_holding hl, loadVector_holding hu]
  rfl

/-- One of the files cannot be read, the others are as they should be. -/
structure Faulty (n : Nat) (fg fl fu : FileArg K) : Prop where
  g : Orderly n fg
  lb : Orderly n fl
  ub : Orderly n fu
  one : Unreadable n fg ∨ Unreadable n fl ∨ Unreadable n fu

theorem loadVectors_faulty {n : Nat} {fg fl fu : FileArg K} (h : Faulty n fg fl fu) :
    ∃ r a b c, QPB.loadQPvectorsFromFile n fg fl fu = .ok (r, a, b, c) ∧ r ≠ SUCCESSFUL_RETURN := by
  unfold QPB.loadQPvectorsFromFile
  rcases h.g with ⟨a, ha⟩ | hx
  · rw [loadVector_holding ha]
    simp only [Res.bind_ok, ne_eq, not_true, if_false]
    cases a with
    | none => exact ⟨_, _, _, _, rfl, by decide⟩
    | some g =>
      simp only [Option.isNone_some, Bool.false_eq_true, if_false]
      rcases h.lb with ⟨b, hb⟩ | hx
      · rw [loadVector_holding hb]
        simp only [Res.bind_ok, not_true, if_false]
        rcases h.ub with ⟨c, hc⟩ | hx
        · exfalso
          have no : ∀ {f : FileArg K} {v}, Holding n f v → Unreadable n f → False := by
            intro f v hv hu
            cases hv with
            | null => cases hu
            | file vs rest hl =>
              obtain ⟨r, w, e, hr⟩ := loadVector_unreadable hu
              rw [loadVector_holding (.file vs rest hl)] at e
              cases e
              exact hr rfl
          rcases h.one with h1 | h1 | h1
          · exact no ha h1
          · exact no hb h1
          · exact no hc h1
        · obtain ⟨r, v, e, hr⟩ := loadVector_unreadable hx
          rw [e]
          exact ⟨_, _, _, _, rfl, hr⟩
      · obtain ⟨r, v, e, hr⟩ := loadVector_unreadable hx
        rw [e]
        simp only [Res.bind_ok]
        rw [if_pos hr]
        exact ⟨_, _, _, _, rfl, hr⟩
  · obtain ⟨r, v, e, hr⟩ := loadVector_unreadable hx
    rw [e]
    simp only [Res.bind_ok, ne_eq]
    rw [if_pos hr]
    exact ⟨_, _, _, _, rfl, hr⟩

/-- **C71** (hotstarts, bounds only): with readable files `hotstart` does exactly what it does with arrays holding their numbers; if a file
cannot be read, it says so and neither the object nor the caller's variables change. -/
theorem C71_hotstartB (sq : K → K) (fuel : Nat) (s : QPB K) (fg fl fu : FileArg K) (nWSR : Int) (cputime : Option K) (guess : QPB.Guess) :
    (∀ g l u, Holding s.nV fg (some g) → Holding s.nV fl l → Holding s.nV fu u →
      s.hotstartFile sq fuel fg fl fu nWSR cputime guess = s.hotstart sq fuel g l u nWSR cputime guess) ∧
    (s.nV ≠ 0 → fg ≠ none → Faulty s.nV fg fl fu →
      s.hotstartFile sq fuel fg fl fu nWSR cputime guess = .ok ⟨RET_UNABLE_TO_READ_FILE, nWSR, cputime, s⟩) := by
  constructor
  · intro g l u hg hl hu
    unfold QPB.hotstartFile
    by_cases h0 : s.nV = 0
    · rw [if_pos h0]; unfold QPB.hotstart; rw [if_pos h0]
    · rw [if_neg h0, loadVectors_holding hg hl hu]
      cases hg with
      | file vs rest h => rfl
  · intro h0 hg hf
    obtain ⟨r, a, b, c, e, hr⟩ := loadVectors_faulty hf
    unfold QPB.hotstartFile
    rw [if_neg h0, e]
    cases fg with
    | none => exact absurd rfl hg
    | some f =>
      simp only [Option.isNone_some, Bool.false_eq_true, if_false, Res.bind_ok]
      split
      · exact absurd rfl hr
      · rfl

theorem emptyArray_holding {f : FileArg K} {a : Option (Nat → K)} (h : Holding 0 f a) : QPC.emptyArray f = a := by
  cases h with
  | null => rfl
  | file vs rest hl =>
    obtain rfl := List.eq_nil_of_length_eq_zero hl
    rfl

theorem loadVectorsC_holding {n m : Nat} {fg fl fu flA fuA : FileArg K} {l u lA uA : Option (Nat → K)} {g : Nat → K}
    (hg : Holding n fg (some g)) (hl : Holding n fl l) (hu : Holding n fu u) (hlA : Holding m flA lA) (huA : Holding m fuA uA) :
    QPC.loadQPvectorsFromFile n m fg fl fu flA fuA = .ok ⟨SUCCESSFUL_RETURN, some g, l, u, lA, uA⟩ := by
  unfold QPC.loadQPvectorsFromFile
  rw [loadVectors_holding hg hl hu]
  simp only [Res.bind_ok, ne_eq, not_true, if_false]
  by_cases hm : m = 0
  · subst hm
    rw [if_pos rfl, emptyArray_holding hlA, emptyArray_holding huA]
  · rw [if_neg hm, loadVector_holding hlA, loadVector_holding huA]
    rfl

theorem Holding.not_unreadable {n : Nat} {f : FileArg K} {v : Option (Nat → K)} (hv : Holding n f v) : ¬ Unreadable n f := by
  intro hu
  cases hv with
  | null => cases hu
  | file vs rest hl =>
    obtain ⟨r, w, e, hr⟩ := loadVector_unreadable hu
    rw [loadVector_holding (.file vs rest hl)] at e
    cases e
    exact hr rfl

/-- One of the files cannot be read, the others are as they should be; files with limits of constraints count only if there are
constraints. -/
structure FaultyC (n m : Nat) (fg fl fu flA fuA : FileArg K) : Prop where
  g : Orderly n fg
  lb : Orderly n fl
  ub : Orderly n fu
  lbA : m > 0 → Orderly m flA
  ubA : m > 0 → Orderly m fuA
  one : Unreadable n fg ∨ Unreadable n fl ∨ Unreadable n fu ∨ m > 0 ∧ (Unreadable m flA ∨ Unreadable m fuA)

theorem loadVectorsC_faulty {n m : Nat} {fg fl fu flA fuA : FileArg K} (h : FaultyC n m fg fl fu flA fuA) :
    ∃ v, QPC.loadQPvectorsFromFile n m fg fl fu flA fuA = .ok v ∧ v.rv ≠ SUCCESSFUL_RETURN := by
  unfold QPC.loadQPvectorsFromFile
  by_cases hB : Unreadable n fg ∨ Unreadable n fl ∨ Unreadable n fu
  · obtain ⟨r, a, b, c, e, hr⟩ := loadVectors_faulty ⟨h.g, h.lb, h.ub, hB⟩
    rw [e]
    simp only [Res.bind_ok, ne_eq]
    rw [if_pos hr]
    exact ⟨_, rfl, hr⟩
  · obtain ⟨hm, h1⟩ : m > 0 ∧ (Unreadable m flA ∨ Unreadable m fuA) := by
      rcases h.one with h' | h' | h' | h'
      · exact absurd (Or.inl h') hB
      · exact absurd (Or.inr (Or.inl h')) hB
      · exact absurd (Or.inr (Or.inr h')) hB
      · exact h'
    have hA : ∃ r b, loadVector m flA = .ok (r, b) ∧ (r = SUCCESSFUL_RETURN → ¬ Unreadable m flA) := by
      rcases h.lbA hm with ⟨a, ha⟩ | hx
      · exact ⟨_, _, loadVector_holding ha, fun _ => ha.not_unreadable⟩
      · obtain ⟨r, v, e, hr⟩ := loadVector_unreadable hx
        exact ⟨_, _, e, fun h => absurd h hr⟩
    obtain ⟨r, b, e, hr⟩ := hA
    have hg : ∃ r a b c, QPB.loadQPvectorsFromFile n fg fl fu = .ok (r, a, b, c) := by
      rcases h.g with ⟨a, ha⟩ | hx
      · rcases h.lb with ⟨b, hb⟩ | hx
        · rcases h.ub with ⟨c, hc⟩ | hx
          · cases a with
            | some g => exact ⟨_, _, _, _, loadVectors_holding ha hb hc⟩
            | none =>
              unfold QPB.loadQPvectorsFromFile
              rw [loadVector_holding ha]
              exact ⟨_, _, _, _, rfl⟩
          · exact absurd (Or.inr (Or.inr hx)) hB
        · exact absurd (Or.inr (Or.inl hx)) hB
      · exact absurd (Or.inl hx) hB
    obtain ⟨r0, a0, b0, c0, e0⟩ := hg
    rw [e0]
    simp only [Res.bind_ok, ne_eq]
    by_cases h0 : r0 = SUCCESSFUL_RETURN
    · rw [if_neg (by simpa using h0), if_neg (by omega), e]
      simp only [Res.bind_ok]
      by_cases hr' : r = SUCCESSFUL_RETURN
      · rw [if_neg (by simpa using hr')]
        rcases h1 with h1 | h1
        · exact absurd h1 (hr hr')
        · obtain ⟨r2, v, e2, hr2⟩ := loadVector_unreadable h1
          rw [e2]
          exact ⟨_, rfl, hr2⟩
      · rw [if_pos hr']
        exact ⟨_, rfl, hr'⟩
    · rw [if_pos h0]
      exact ⟨_, rfl, h0⟩

/-- **C71** (hotstarts): with readable files `hotstart` does exactly what it does with arrays holding their numbers; if a file cannot be
read, it says so and neither the object nor the caller's variables change. -/
theorem C71_hotstart (sq : K → K) (fuel : Nat) (s : QPC K) (fg fl fu flA fuA : FileArg K) (nWSR : Int) (cputime : Option K) (gB gC : QPB.Guess) :
    (∀ g l u lA uA, Holding s.nV fg (some g) → Holding s.nV fl l → Holding s.nV fu u → Holding s.nC flA lA → Holding s.nC fuA uA →
      s.hotstartFile sq fuel fg fl fu flA fuA nWSR cputime gB gC = s.hotstart sq fuel g l u lA uA nWSR cputime gB gC) ∧
    (s.nV ≠ 0 → fg ≠ none → FaultyC s.nV s.nC fg fl fu flA fuA →
      s.hotstartFile sq fuel fg fl fu flA fuA nWSR cputime gB gC = .ok ⟨RET_UNABLE_TO_READ_FILE, nWSR, cputime, s⟩) := by
  constructor
  · intro g l u lA uA hg hl hu hlA huA
    unfold QPC.hotstartFile
    by_cases h0 : s.nV = 0
    · rw [if_pos h0]; unfold QPC.hotstart; rw [if_pos h0]
    · rw [if_neg h0, loadVectorsC_holding hg hl hu hlA huA]
      cases hg with
      | file vs rest h => rfl
  · intro h0 hg hf
    obtain ⟨v, e, hr⟩ := loadVectorsC_faulty hf
    unfold QPC.hotstartFile
    rw [if_neg h0, e]
    cases fg with
    | none => exact absurd rfl hg
    | some f =>
      simp only [Option.isNone_some, Bool.false_eq_true, if_false, Res.bind_ok]
      generalize v.rv = r at hr
      generalize v.g = g
      split
      · exact absurd rfl hr
      · rfl

/-- **C71** (hotstarts with new matrices, what holds): with readable files `hotstart` of an SQProblem returns what it returns with arrays
holding their numbers, and leaves the object as the array variant does, except that the object refers to matrices that are no longer there
(see `C71_dangling`). -/
theorem C71_new_matrices_partial (sq : K → K) (fuel : Nat) (s : QPC K) {fH fg fA fl fu flA fuA : FileArg K} {H A g : Nat → K}
    {l u lA uA : Option (Nat → K)} (hH : Holding (s.nV * s.nV) fH (some H)) (hg : Holding s.nV fg (some g))
    (hA : Holding (s.nC * s.nV) fA (some A)) (hl : Holding s.nV fl l) (hu : Holding s.nV fu u) (hlA : Holding s.nC flA lA)
    (huA : Holding s.nC fuA uA) (nWSR : Int) (cputime : Option K) (gB gC : QPB.Guess) {o : OutC K}
    (e : s.hotstartNew sq fuel (some H) g (some A) l u lA uA nWSR cputime gB gC = .ok o) :
    ∃ M, s.hotstartNewFile sq fuel fH fg fA fl fu flA fuA nWSR cputime gB gC = .ok { o with s := { o.s with H := M } } := by
  have hv := loadVectorsC_holding hg hl hu hlA huA
  unfold QPC.hotstartNewFile
  cases hH with
  | file vH rH h1 =>
    cases hg with
    | file vg rg h2 =>
      cases hA with
      | file vA rA h3 =>
        simp only [Option.isNone_some, Bool.false_eq_true, and_false, if_false]
        rw [readOver_numbers rfl alloc_none h1]
        simp only [Res.bind_ok, ne_eq, not_true, if_false]
        rw [readOver_numbers rfl alloc_none h3]
        simp only [Res.bind_ok, not_true, if_false]
        rw [hv]
        simp only [Res.bind_ok]
        rw [e]
        simp only [Res.bind_ok]
        split
        · exact ⟨o.s.H, rfl⟩
        · exact ⟨none, rfl⟩

/-- **C71** (hotstarts with new matrices): if a file cannot be read, the call says so and changes nothing. -/
theorem C71_new_matrices_unreadable (sq : K → K) (fuel : Nat) (s : QPC K) {fH fg fA fl fu flA fuA : FileArg K} {H A : Nat → K}
    (nWSR : Int) (cputime : Option K) (gB gC : QPB.Guess) (hg : fg ≠ none)
    (h : Unreadable (s.nV * s.nV) fH ∧ fA ≠ none ∨
      Holding (s.nV * s.nV) fH (some H) ∧ Unreadable (s.nC * s.nV) fA ∨
      Holding (s.nV * s.nV) fH (some H) ∧ Holding (s.nC * s.nV) fA (some A) ∧ FaultyC s.nV s.nC fg fl fu flA fuA) :
    s.hotstartNewFile sq fuel fH fg fA fl fu flA fuA nWSR cputime gB gC = .ok ⟨RET_UNABLE_TO_READ_FILE, nWSR, cputime, s⟩ := by
  unfold QPC.hotstartNewFile
  cases fg with
  | none => exact absurd rfl hg
  | some f0 =>
    rcases h with ⟨h1, h2⟩ | ⟨h1, h2⟩ | ⟨h1, h2, h3⟩
    · cases fH with
      | none => cases h1
      | some fH =>
        obtain ⟨r, v, e, hr⟩ := readOver_unreadable (d := Mem.alloc (s.nV * s.nV)) (nrow := s.nV) (ncol := s.nV) rfl rfl h1
        cases fA with
        | none => exact absurd rfl h2
        | some fA =>
          simp only [Option.isNone_some, Bool.false_eq_true, and_false, if_false]
          rw [e]
          simp only [Res.bind_ok, ne_eq]
          rw [if_pos hr]
    · cases h1 with
      | file vH rH h1 =>
        cases fA with
        | none => cases h2
        | some fA =>
          obtain ⟨r, v, e, hr⟩ := readOver_unreadable (d := Mem.alloc (s.nC * s.nV)) (nrow := s.nC) (ncol := s.nV) rfl rfl h2
          simp only [Option.isNone_some, Bool.false_eq_true, and_false, if_false]
          rw [readOver_numbers rfl alloc_none h1]
          simp only [Res.bind_ok, ne_eq, not_true, if_false]
          rw [e]
          simp only [Res.bind_ok]
          rw [if_pos hr]
    · cases h1 with
      | file vH rH h1 =>
        cases h2 with
        | file vA rA h2 =>
          obtain ⟨v, e, hr⟩ := loadVectorsC_faulty h3
          simp only [Option.isNone_some, Bool.false_eq_true, and_false, if_false]
          rw [readOver_numbers rfl alloc_none h1]
          simp only [Res.bind_ok, ne_eq, not_true, if_false]
          rw [readOver_numbers rfl alloc_none h2]
          simp only [Res.bind_ok, not_true, if_false]
          rw [e]
          simp only [Res.bind_ok]
          generalize v.rv = r at hr
          generalize v.g = g
          split
          · exact absurd rfl hr
          · rfl

/-! ### Initialisation from files that cannot be read -/

theorem readOver_orderly {d : Mem K} {nrow ncol n : Nat} (hd : d.size = nrow * ncol) (hc : ∀ i, nrow * ncol ≤ i → d.cell i = none)
    (hn : n = nrow * ncol) {f : Option (TextFile K)} (h : Orderly n (some f)) :
    ∃ r v, readOver d nrow ncol f = .ok (r, v) ∧ (r = SUCCESSFUL_RETURN → ¬ Unreadable n (some f)) := by
  subst hn
  rcases h with ⟨a, ha⟩ | hx
  · cases ha with
    | file vs rest hl => exact ⟨_, _, readOver_numbers hd hc hl rest, fun _ => (Holding.file vs rest hl).not_unreadable⟩
  · obtain ⟨r, v, e, hr⟩ := readOver_unreadable hd rfl hx
    exact ⟨r, v, e, fun h => absurd h hr⟩

theorem readLimits_orderly {n : Nat} {f : FileArg K} (old : Nat → K) (inf : K) (h : Orderly n f) :
    ∃ r v, readLimits n old inf f = .ok (r, v) ∧ (r = SUCCESSFUL_RETURN → ¬ Unreadable n f) := by
  rcases h with ⟨a, ha⟩ | hx
  · exact ⟨_, _, readLimits_holding old inf ha, fun _ => ha.not_unreadable⟩
  · obtain ⟨r, v, e, hr⟩ := readLimits_unreadable old inf hx
    exact ⟨r, v, e, fun h => absurd h hr⟩

theorem setH_frame (s : QPB K) (h : Option (Nat → K)) : (s.setH h).nV = s.nV ∧ (s.setH h).status = s.status := by
  unfold QPB.setH; split <;> [split; skip] <;> exact ⟨rfl, rfl⟩

theorem setupQPdataFromFile_orderlyB (s : QPB K) {fH fg fl fu : FileArg K}
    (hH : Orderly (s.nV * s.nV) fH) (hg : Orderly s.nV fg) (hl : Orderly s.nV fl) (hu : Orderly s.nV fu) :
    ∃ r b, s.setupQPdataFromFile fH fg fl fu = .ok (r, b) ∧ b.status = s.status ∧ b.nV = s.nV ∧
      (r = SUCCESSFUL_RETURN → ¬ Unreadable (s.nV * s.nV) fH ∧ ¬ Unreadable s.nV fg ∧ ¬ Unreadable s.nV fl ∧ ¬ Unreadable s.nV fu) := by
  have rest : ∀ t : QPB K, t.nV = s.nV → t.status = s.status → ∃ r b, (match fg with
      | none => .ok (RET_INVALID_ARGUMENTS, t)
      | some f => do
        let (r, v) ← readOver (memOf t.nV t.g) t.nV 1 f
        let s := { t with g := v }
        if r ≠ SUCCESSFUL_RETURN then .ok (r, s) else do
        let (r, v) ← readLimits s.nV s.lb (-INFTY) fl
        let s := { s with lb := v }
        if r ≠ SUCCESSFUL_RETURN then .ok (r, s) else do
        let (r, v) ← readLimits s.nV s.ub INFTY fu
        .ok (r, { s with ub := v }) : Res (ReturnValue × QPB K)) = .ok (r, b) ∧ b.status = s.status ∧ b.nV = s.nV ∧
      (r = SUCCESSFUL_RETURN → ¬ Unreadable s.nV fg ∧ ¬ Unreadable s.nV fl ∧ ¬ Unreadable s.nV fu) := by
    intro t ht hst
    cases fg with
    | none => exact ⟨_, _, rfl, hst, ht, fun h => (by cases h)⟩
    | some f =>
      dsimp only
      obtain ⟨r, v, e, hr⟩ := readOver_orderly (d := memOf t.nV t.g) (nrow := t.nV) (ncol := 1) (by simp [memOf])
        (by simpa using memOf_none t.g) (by rw [ht, Nat.mul_one]) hg
      rw [e]
      simp only [Res.bind_ok]
      by_cases h0 : r = SUCCESSFUL_RETURN
      · rw [if_neg (by simpa using h0)]
        obtain ⟨r1, v1, e1, hr1⟩ := readLimits_orderly (n := t.nV) t.lb (-INFTY) (ht ▸ hl)
        rw [e1]
        simp only [Res.bind_ok]
        by_cases h1 : r1 = SUCCESSFUL_RETURN
        · rw [if_neg (by simpa using h1)]
          obtain ⟨r2, v2, e2, hr2⟩ := readLimits_orderly (n := t.nV) t.ub INFTY (ht ▸ hu)
          rw [e2]
          exact ⟨_, _, rfl, hst, ht, fun h => ⟨hr h0, ht ▸ hr1 h1, ht ▸ hr2 h⟩⟩
        · rw [if_pos h1]
          exact ⟨_, _, rfl, hst, ht, fun h => absurd h h1⟩
      · rw [if_pos h0]
        exact ⟨_, _, rfl, hst, ht, fun h => absurd h h0⟩
  unfold QPB.setupQPdataFromFile
  cases fH with
  | none =>
    obtain ⟨r, b, e, h1, h2, h3⟩ := rest (s.setH none) (setH_frame s none).1 (setH_frame s none).2
    exact ⟨r, b, e, h1, h2, fun h => ⟨fun hx => (by cases hx), h3 h⟩⟩
  | some f =>
    obtain ⟨r, v, e, hr⟩ := readOver_orderly (d := Mem.alloc (s.nV * s.nV)) rfl alloc_none rfl hH
    dsimp only
    rw [e]
    simp only [Res.bind_ok]
    by_cases h0 : r = SUCCESSFUL_RETURN
    · subst h0
      obtain ⟨r', b, e', h1, h2, h3⟩ := rest (s.setH (some v)) (setH_frame s (some v)).1 (setH_frame s (some v)).2
      exact ⟨r', b, e', h1, h2, fun h => ⟨hr rfl, h3 h⟩⟩
    · rw [if_pos h0]
      simp only
      rw [if_pos h0]
      exact ⟨r, s, rfl, rfl, rfl, fun h => absurd h h0⟩

theorem setupQPdataFromFile_orderly (s : QPC K) {fH fg fA fl fu flA fuA : FileArg K}
    (hH : Orderly (s.nV * s.nV) fH) (hg : Orderly s.nV fg) (hl : Orderly s.nV fl) (hu : Orderly s.nV fu)
    (hA : s.nC > 0 → Orderly (s.nC * s.nV) fA ∧ Orderly s.nC flA ∧ Orderly s.nC fuA) :
    ∃ r b, s.setupQPdataFromFile fH fg fA fl fu flA fuA = .ok (r, b) ∧ b.status = s.status ∧
      (r = SUCCESSFUL_RETURN → ¬ Unreadable (s.nV * s.nV) fH ∧ ¬ Unreadable s.nV fg ∧ ¬ Unreadable s.nV fl ∧ ¬ Unreadable s.nV fu ∧
        (s.nC > 0 → ¬ Unreadable (s.nC * s.nV) fA ∧ ¬ Unreadable s.nC flA ∧ ¬ Unreadable s.nC fuA)) := by
  obtain ⟨r, b, e, h1, h2, h3⟩ := setupQPdataFromFile_orderlyB s.toQPB hH hg hl hu
  unfold QPC.setupQPdataFromFile
  rw [e]
  simp only [Res.bind_ok]
  by_cases h0 : r = SUCCESSFUL_RETURN
  · rw [if_neg (by simpa using h0)]
    obtain ⟨k1, k2, k3, k4⟩ := h3 h0
    by_cases hm : s.nC = 0
    · rw [if_pos hm]
      exact ⟨_, _, rfl, h1, fun _ => ⟨k1, k2, k3, k4, fun h => by omega⟩⟩
    · rw [if_neg hm]
      obtain ⟨a1, a2, a3⟩ := hA (by omega)
      cases fA with
      | none => exact ⟨_, _, rfl, h1, fun h => (by cases h)⟩
      | some fA =>
        dsimp only
        obtain ⟨r1, v1, e1, hr1⟩ := readLimits_orderly s.lbA (-INFTY) a2
        rw [e1]
        simp only [Res.bind_ok]
        by_cases h1' : r1 = SUCCESSFUL_RETURN
        · rw [if_neg (by simpa using h1')]
          obtain ⟨r2, v2, e2, hr2⟩ := readLimits_orderly s.ubA INFTY a3
          rw [e2]
          simp only [Res.bind_ok]
          by_cases h2' : r2 = SUCCESSFUL_RETURN
          · rw [if_neg (by simpa using h2'), h2]
            obtain ⟨r4, v4, e4, hr4⟩ := readOver_orderly (d := Mem.alloc (s.nC * s.nV)) rfl alloc_none rfl a1
            rw [e4]
            simp only [Res.bind_ok]
            by_cases h4 : r4 = SUCCESSFUL_RETURN
            · rw [if_neg (by simpa using h4)]
              exact ⟨_, _, rfl, h1, fun _ => ⟨k1, k2, k3, k4, fun _ => ⟨hr4 h4, hr1 h1', hr2 h2'⟩⟩⟩
            · rw [if_pos h4]
              exact ⟨_, _, rfl, h1, fun h => absurd h h4⟩
          · rw [if_pos h2']
            exact ⟨_, _, rfl, h1, fun h => absurd h h2'⟩
        · rw [if_pos h1']
          exact ⟨_, _, rfl, h1, fun h => absurd h h1'⟩
  · rw [if_pos h0]
    exact ⟨_, _, rfl, h1, fun h => absurd h h0⟩

/-- **C71** (initialisation from unreadable files, bounds only): `init` fails without touching the caller's variables, and the object counts
as not initialised. -/
theorem C71_init_unreadableB (sq : K → K) (fuel : Nat) (s : QPB K) {fH fg fl fu : FileArg K} (h0 : s.nV ≠ 0)
    (hH : Orderly (s.nV * s.nV) fH) (hg : Orderly s.nV fg) (hl : Orderly s.nV fl) (hu : Orderly s.nV fu)
    (h : Unreadable (s.nV * s.nV) fH ∨ Unreadable s.nV fg ∨ Unreadable s.nV fl ∨ Unreadable s.nV fu)
    (nWSR : Int) (cputime : Option K) (xOpt yOpt : Option (Nat → K)) (guess : Option WS) (R : FileArg K) :
    ∃ rv s', s.initFile sq fuel fH fg fl fu nWSR cputime xOpt yOpt guess R = .ok ⟨rv, nWSR, cputime, s'⟩ ∧ rv ≠ SUCCESSFUL_RETURN ∧
      s'.status = QPS_NOTINITIALISED ∧ (guess = none → R = none → rv = RET_UNABLE_TO_READ_FILE) := by
  unfold QPB.initFile
  rw [if_neg h0]
  have hn : (if s.status ≠ QPS_NOTINITIALISED then s.reset else s).nV = s.nV := by split <;> rfl
  have hs : (if s.status ≠ QPS_NOTINITIALISED then s.reset else s).status = QPS_NOTINITIALISED := by
    split
    · rfl
    · rename_i h; simpa using h
  generalize (if s.status ≠ QPS_NOTINITIALISED then s.reset else s) = t at hn hs
  rw [← hn] at hH hg hl hu h
  dsimp only
  split
  · rename_i hh
    exact ⟨_, _, rfl, by decide, hs, fun h1 _ => (by subst h1; simp at hh)⟩
  · split
    · rename_i hh
      exact ⟨_, _, rfl, by decide, hs, fun h1 _ => (by subst h1; simp at hh)⟩
    · split
      · rename_i hh
        exact ⟨_, _, rfl, by decide, hs, fun _ h1 => (by subst h1; simp at hh)⟩
      · obtain ⟨r, b, e, h1, -, h3⟩ := setupQPdataFromFile_orderlyB t hH hg hl hu
        rw [e]
        simp only [Res.bind_ok]
        rw [if_pos (show r ≠ SUCCESSFUL_RETURN from fun hr => by
          obtain ⟨k1, k2, k3, k4⟩ := h3 hr
          rcases h with h | h | h | h
          · exact k1 h
          · exact k2 h
          · exact k3 h
          · exact k4 h)]
        exact ⟨_, _, rfl, by decide, h1.trans hs, fun _ _ => rfl⟩

/-- **C71** (initialisation from unreadable files): `init` fails without touching the caller's variables, and the object counts as not
initialised. -/
theorem C71_init_unreadable (sq : K → K) (fuel : Nat) (s : QPC K) {fH fg fA fl fu flA fuA : FileArg K} (h0 : s.nV ≠ 0)
    (hH : Orderly (s.nV * s.nV) fH) (hg : Orderly s.nV fg) (hl : Orderly s.nV fl) (hu : Orderly s.nV fu)
    (hA : s.nC > 0 → Orderly (s.nC * s.nV) fA ∧ Orderly s.nC flA ∧ Orderly s.nC fuA)
    (h : Unreadable (s.nV * s.nV) fH ∨ Unreadable s.nV fg ∨ Unreadable s.nV fl ∨ Unreadable s.nV fu ∨
      s.nC > 0 ∧ (Unreadable (s.nC * s.nV) fA ∨ Unreadable s.nC flA ∨ Unreadable s.nC fuA))
    (nWSR : Int) (cputime : Option K) (xOpt yOpt : Option (Nat → K)) (gB gC : Option WS) (R : FileArg K) :
    ∃ rv s', s.initFile sq fuel fH fg fA fl fu flA fuA nWSR cputime xOpt yOpt gB gC R = .ok ⟨rv, nWSR, cputime, s'⟩ ∧
      rv ≠ SUCCESSFUL_RETURN ∧ s'.status = QPS_NOTINITIALISED ∧ (gB = none → gC = none → R = none → rv = RET_UNABLE_TO_READ_FILE) := by
  unfold QPC.initFile
  rw [if_neg h0]
  have hn : (if s.status ≠ QPS_NOTINITIALISED then s.reset else s).nV = s.nV := by split <;> rfl
  have hm : (if s.status ≠ QPS_NOTINITIALISED then s.reset else s).nC = s.nC := by split <;> rfl
  have hs : (if s.status ≠ QPS_NOTINITIALISED then s.reset else s).status = QPS_NOTINITIALISED := by
    split
    · rfl
    · rename_i h; simpa using h
  generalize (if s.status ≠ QPS_NOTINITIALISED then s.reset else s) = t at hn hm hs
  rw [← hn] at hH hg hl hu h hA
  rw [← hm] at h hA
  dsimp only
  split
  · rename_i hh
    exact ⟨_, _, rfl, by decide, hs, fun h1 _ _ => (by subst h1; simp at hh)⟩
  · split
    · rename_i hh
      exact ⟨_, _, rfl, by decide, hs, fun _ h1 _ => (by subst h1; simp at hh)⟩
    · split
      · rename_i hh
        exact ⟨_, _, rfl, by decide, hs, fun h1 h2 _ => (by subst h1; subst h2; simp at hh)⟩
      · split
        · rename_i hh
          exact ⟨_, _, rfl, by decide, hs, fun _ _ h1 => (by subst h1; simp at hh)⟩
        · obtain ⟨r, b, e, h1, h3⟩ := setupQPdataFromFile_orderly t hH hg hl hu hA
          rw [e]
          simp only [Res.bind_ok]
          rw [if_pos (show r ≠ SUCCESSFUL_RETURN from fun hr => by
            obtain ⟨k1, k2, k3, k4, k5⟩ := h3 hr
            rcases h with h | h | h | h | ⟨hp, h | h | h⟩
            · exact k1 h
            · exact k2 h
            · exact k3 h
            · exact k4 h
            · exact (k5 hp).1 h
            · exact (k5 hp).2.1 h
            · exact (k5 hp).2.2 h)]
          exact ⟨_, _, rfl, by decide, h1.trans hs, fun _ _ _ => rfl⟩

/-! ### A Cholesky factor from a file -/

theorem init_freshB (sq : K → K) (fuel : Nat) (s : QPB K) (h0 : s.nV ≠ 0) (hs : s.status = QPS_NOTINITIALISED) (H l u : Option (Nat → K))
    (g : Nat → K) (nWSR : Int) (cputime : Option K) (R : Option (Nat → K)) :
    s.init sq fuel H (some g) l u nWSR cputime none none none R =
      QPB.solveInitialQP sq fuel (s.setupQPdata H (some g) l u).2 none none none R nWSR cputime := by
  have hr : (s.setupQPdata H (some g) l u).1 = SUCCESSFUL_RETURN := rfl
  unfold QPB.init
  rw [if_neg h0, if_neg (show ¬ (s.status ≠ QPS_NOTINITIALISED) from fun h => h hs)]
  simp only [Option.any_none, Bool.false_eq_true, Option.isNone_none, Option.isSome_none, Bool.and_false, Bool.or_self, if_false]
  generalize s.setupQPdata H (some g) l u = p at hr
  obtain ⟨r, b⟩ := p
  dsimp only at hr
  subst hr
  rfl

theorem init_fresh (sq : K → K) (fuel : Nat) (s : QPC K) (h0 : s.nV ≠ 0) (hs : s.status = QPS_NOTINITIALISED)
    (H A l u lA uA : Option (Nat → K)) (g : Nat → K) (hA : s.nC > 0 → A ≠ none) (nWSR : Int) (cputime : Option K) (R : Option (Nat → K)) :
    s.init sq fuel H (some g) A l u lA uA nWSR cputime none none none none R =
      QPC.solveInitialQP sq fuel (s.setupQPdata H (some g) A l u lA uA).2 none none none none R nWSR cputime := by
  have hr := setupQPdata_success s (H := H) (g := g) (A := A) (l := l) (u := u) (lA := lA) (uA := uA) hA
  unfold QPC.init
  rw [if_neg h0, if_neg (show ¬ (s.status ≠ QPS_NOTINITIALISED) from fun h => h hs)]
  simp only [Option.any_none, Bool.false_eq_true, Option.isNone_none, Option.isSome_none, Bool.and_false, Bool.or_self, if_false]
  generalize s.setupQPdata H (some g) A l u lA uA = p at hr
  obtain ⟨r, b⟩ := p
  dsimp only at hr
  subst hr
  rfl

/-- **C71** (factor from a file, bounds only): the factor read from a file is used like one passed as an array to an object whose storage
for the factor holds the numbers of the file, including those below the diagonal. -/
theorem C71_init_factorB (sq : K → K) (fuel : Nat) (s : QPB K) {fH fg fl fu : FileArg K} {H l u : Option (Nat → K)} {g : Nat → K}
    (h0 : s.nV ≠ 0)
    (hH : Holding (s.nV * s.nV) fH H) (hg : Holding s.nV fg (some g)) (hl : Holding s.nV fl l) (hu : Holding s.nV fu u)
    (hs : s.status = QPS_NOTINITIALISED) (vR : List K) (rest : TextFile K) (hR : vR.length = s.nV * s.nV)
    (nWSR : Int) (cputime : Option K) :
    s.initFile sq fuel fH fg fl fu nWSR cputime none none none (some (some (vR.map some ++ rest))) =
      QPB.init sq fuel { s with R := fun i j => if i < s.nV ∧ j < s.nV then arr vR (i * s.nV + j) else s.R i j }
        H (some g) l u nWSR cputime none none none (some (arr vR)) := by
  have hw : ∀ R, (QPB.setupQPdata { s with R := R } H (some g) l u).2 = { (s.setupQPdata H (some g) l u).2 with R := R } := by
    intro R
    unfold QPB.setupQPdata QPB.setH
    cases H <;> dsimp only <;> first | rfl | (split <;> rfl)
  have hRR : (s.setupQPdata H (some g) l u).2.R = s.R := by
    unfold QPB.setupQPdata QPB.setH
    cases H <;> dsimp only <;> first | rfl | (split <;> rfl)
  have hn := setupQPdata_nVB s H (some g) l u
  have hr : (s.setupQPdata H (some g) l u).1 = SUCCESSFUL_RETURN := rfl
  rw [init_freshB (s := { s with R := fun i j => if i < s.nV ∧ j < s.nV then arr vR (i * s.nV + j) else s.R i j }) sq fuel h0 hs, hw]
  unfold QPB.initFile
  rw [if_neg h0, if_neg (show ¬ (s.status ≠ QPS_NOTINITIALISED) from fun h => h hs)]
  dsimp only
  rw [setupQPdataFromFile_eqB s hH hg hl hu]
  simp only [Option.any_none, Bool.false_eq_true, Option.isNone_none, Option.isSome_none, Bool.and_false, Bool.or_self, if_false]
  generalize s.setupQPdata H (some g) l u = p at hn hr hRR
  obtain ⟨r, b⟩ := p
  dsimp only at hn hr hRR
  subst hr
  simp only [Res.bind_ok, ne_eq, not_true, if_false]
  rw [← hn] at hR
  rw [readOver_numbers rfl (memOf_none _) hR]
  simp only [Res.bind_ok, not_true, if_false]
  rw [hRR, hn]

/-- **C71** (factor from a file): as before. -/
theorem C71_init_factor (sq : K → K) (fuel : Nat) (s : QPC K) {fH fg fA fl fu flA fuA : FileArg K} {H A l u lA uA : Option (Nat → K)}
    {g : Nat → K} (h0 : s.nV ≠ 0)
    (hH : Holding (s.nV * s.nV) fH H) (hg : Holding s.nV fg (some g)) (hl : Holding s.nV fl l) (hu : Holding s.nV fu u)
    (hA : s.nC > 0 → Holding (s.nC * s.nV) fA A ∧ A ≠ none ∧ Holding s.nC flA lA ∧ Holding s.nC fuA uA)
    (hs : s.status = QPS_NOTINITIALISED) (vR : List K) (rest : TextFile K) (hR : vR.length = s.nV * s.nV)
    (nWSR : Int) (cputime : Option K) :
    s.initFile sq fuel fH fg fA fl fu flA fuA nWSR cputime none none none none (some (some (vR.map some ++ rest))) =
      QPC.init sq fuel { s with R := fun i j => if i < s.nV ∧ j < s.nV then arr vR (i * s.nV + j) else s.R i j }
        H (some g) A l u lA uA nWSR cputime none none none none (some (arr vR)) := by
  have hw : ∀ R, (QPC.setupQPdata { s with R := R } H (some g) A l u lA uA).2 =
      { (s.setupQPdata H (some g) A l u lA uA).2 with R := R } := by
    intro R
    have hB : QPB.setupQPdata ({ s with R := R } : QPC K).toQPB H (some g) l u =
        (SUCCESSFUL_RETURN, { (s.toQPB.setupQPdata H (some g) l u).2 with R := R }) := by
      unfold QPB.setupQPdata QPB.setH
      cases H <;> dsimp only <;> first | rfl | (split <;> rfl)
    have hr : (s.toQPB.setupQPdata H (some g) l u).1 = SUCCESSFUL_RETURN := rfl
    unfold QPC.setupQPdata
    rw [hB]
    generalize s.toQPB.setupQPdata H (some g) l u = p at hr
    obtain ⟨r, b⟩ := p
    dsimp only at hr
    subst hr
    simp only [ne_eq, not_true, if_false]
    by_cases hm : s.nC = 0
    · rw [if_pos hm, if_pos hm]
    · rw [if_neg hm, if_neg hm]
      cases A <;> rfl
  have hf : (s.setupQPdata H (some g) A l u lA uA).2.R = s.R ∧ (s.setupQPdata H (some g) A l u lA uA).2.nV = s.nV := by
    have hRR : (s.toQPB.setupQPdata H (some g) l u).2.R = s.R := by
      unfold QPB.setupQPdata QPB.setH
      cases H <;> dsimp only <;> first | rfl | (split <;> rfl)
    have hn := setupQPdata_nVB s.toQPB H (some g) l u
    have hr : (s.toQPB.setupQPdata H (some g) l u).1 = SUCCESSFUL_RETURN := rfl
    unfold QPC.setupQPdata
    generalize s.toQPB.setupQPdata H (some g) l u = p at hr hn hRR
    obtain ⟨r, b⟩ := p
    dsimp only at hr hn hRR
    subst hr
    simp only [ne_eq, not_true, if_false]
    by_cases hm : s.nC = 0
    · rw [if_pos hm]; exact ⟨hRR, hn⟩
    · rw [if_neg hm]
      cases A <;> exact ⟨hRR, hn⟩
  obtain ⟨hRR, hn⟩ := hf
  have hr := setupQPdata_success s (H := H) (g := g) (A := A) (l := l) (u := u) (lA := lA) (uA := uA) fun h => (hA h).2.1
  rw [init_fresh (s := { s with R := fun i j => if i < s.nV ∧ j < s.nV then arr vR (i * s.nV + j) else s.R i j }) sq fuel h0 hs
    (hA := fun h => (hA h).2.1), hw]
  unfold QPC.initFile
  rw [if_neg h0, if_neg (show ¬ (s.status ≠ QPS_NOTINITIALISED) from fun h => h hs)]
  dsimp only
  rw [setupQPdataFromFile_eq s hH hg hl hu hA]
  simp only [Option.any_none, Bool.false_eq_true, Option.isNone_none, Option.isSome_none, Bool.and_false, Bool.or_self, if_false]
  generalize s.setupQPdata H (some g) A l u lA uA = p at hn hr hRR
  obtain ⟨r, b⟩ := p
  dsimp only at hn hr hRR
  subst hr
  simp only [Res.bind_ok, ne_eq, not_true, if_false]
  rw [← hn] at hR
  rw [readOver_numbers rfl (memOf_none _) hR]
  simp only [Res.bind_ok, not_true, if_false]
  rw [hRR, hn]

/-! ### What does not hold -/

theorem loadVector_truncated {n : Nat} {vs : List K} {w : K} (hw : vs.getLast? = some w) (hl : vs.length < n) :
    loadVector n (some (some (vs.map some))) = .ok (SUCCESSFUL_RETURN, some (arr (vs ++ List.replicate (n - vs.length) w))) := by
  have h := (C47_read_partial (Mem.alloc n : Mem K) n 1 (by simp [Mem.alloc])).2.2.2.1 vs w hw (by simpa using hl)
  simp only [loadVector, readOver]
  rw [h]
  simp only [Res.bind_ok, Res.ok.injEq, Prod.mk.injEq, Option.some.injEq, true_and, Nat.mul_one]
  funext i
  simp only [patch, Mem.alloc, arr, List.getD_eq_getElem?_getD, List.length_replicate, List.getElem?_append, Nat.zero_le, Nat.zero_add,
    true_and, Nat.sub_zero]
  by_cases h1 : i < vs.length
  · rw [if_neg (by omega), if_pos h1, if_pos h1]
  · rw [if_neg h1, if_neg h1]
    by_cases h2 : i < n
    · rw [if_pos (by omega)]
    · rw [if_neg (by omega), List.getElem?_eq_none (by simp; omega)]

/-- **C71** (files that end too early): if the file with the gradient ends early, `hotstart` solves another QP: the one in which the missing
entries equal the last one read. -/
theorem C71_truncated (sq : K → K) (fuel : Nat) (s : QPC K) {fl fu flA fuA : FileArg K} {l u lA uA : Option (Nat → K)} {vs : List K} {w : K}
    (hw : vs.getLast? = some w) (hl' : vs.length < s.nV)
    (hl : Holding s.nV fl l) (hu : Holding s.nV fu u) (hlA : Holding s.nC flA lA) (huA : Holding s.nC fuA uA)
    (nWSR : Int) (cputime : Option K) (gB gC : QPB.Guess) :
    s.hotstartFile sq fuel (some (some (vs.map some))) fl fu flA fuA nWSR cputime gB gC =
      s.hotstart sq fuel (arr (vs ++ List.replicate (s.nV - vs.length) w)) l u lA uA nWSR cputime gB gC := by
  have hv : QPC.loadQPvectorsFromFile s.nV s.nC (some (some (vs.map some))) fl fu flA fuA =
      .ok ⟨SUCCESSFUL_RETURN, some (arr (vs ++ List.replicate (s.nV - vs.length) w)), l, u, lA, uA⟩ := by
    unfold QPC.loadQPvectorsFromFile QPB.loadQPvectorsFromFile
    rw [loadVector_truncated hw hl', loadVector_holding hl, loadVector_holding hu]
    simp only [Res.bind_ok, ne_eq, not_true, if_false, Option.isNone_some, Bool.false_eq_true]
    by_cases hm : s.nC = 0
    · rw [hm] at hlA huA
      rw [if_pos hm, emptyArray_holding hlA, emptyArray_holding huA]
    · rw [if_neg hm, loadVector_holding hlA, loadVector_holding huA]
      rfl
  unfold QPC.hotstartFile
  rw [if_neg (by omega), hv]
  rfl

/-- **C71** (no constraints): an SQProblem without constraints cannot be hotstarted from files without naming a file for the constraint
matrix, although the documentation says so: the null pointer is passed to `fopen`. -/
theorem C71_no_constraints (sq : K → K) (fuel : Nat) (s : QPC K) {fH fg fl fu flA fuA : FileArg K} {H : Nat → K} (hm : s.nC = 0)
    (hH : Holding (s.nV * s.nV) fH (some H)) (hg : fg ≠ none) (nWSR : Int) (cputime : Option K) (gB gC : QPB.Guess) :
    s.hotstartNewFile sq fuel fH fg none fl fu flA fuA nWSR cputime gB gC = .ub .nullDeref := by
  unfold QPC.hotstartNewFile
  cases fg with
  | none => exact absurd rfl hg
  | some f =>
    cases hH with
    | file vs rest h =>
      dsimp only
      rw [if_neg (by omega), readOver_numbers rfl alloc_none h]
      rfl

end QpOASES.Props

namespace QpOASES.Props
open QpOASES.Runs ReturnValue HessianType QProblemStatus

/-- A file with these numbers -/
def fileOf (vs : List ℚ) : FileArg ℚ := some (some (vs.map some))

theorem fileOf_holding {n : Nat} (vs : List ℚ) (h : n = vs.length) : Holding n (fileOf vs) (some (vec vs)) := by
  have := Holding.file (K := ℚ) vs [] h.symm
  rwa [List.append_nil] at this

/-- The cold start of C34 with data from files … -/
def file1 : Res (OutC ℚ) := gen0.initFile rootC 5 (fileOf [4,0,0,25]) (fileOf [-20,-50]) (fileOf [3,4]) (fileOf [-100,-100]) (fileOf [100,100])
  (fileOf [-50]) (fileOf [5]) 10 none none none none none none

/-- … is the cold start of C34. -/
theorem file1_eq : file1 = gen1 :=
  C71_init rootC 5 gen0 (H := some (vec [4,0,0,25])) (g := vec [-20,-50]) (A := some (vec [3,4])) (l := some (vec [-100,-100]))
    (u := some (vec [100,100])) (lA := some (vec [-50])) (uA := some (vec [5]))
    (fileOf_holding _ rfl) (fileOf_holding _ rfl) (fileOf_holding _ rfl) (fileOf_holding _ rfl)
    (fun _ => ⟨fileOf_holding _ rfl, by simp, fileOf_holding _ rfl, fileOf_holding _ rfl⟩) 10 none none none none none

/-- The hotstart of C34 with vectors from files, after that: also the same. -/
example : ∃ o, gen1 = .ok o ∧ ∃ o', o.s.hotstartFile rootC 5 (fileOf [40,-100]) (fileOf [-2,-100]) (fileOf [100,100]) (fileOf [-50]) (fileOf [5]) 10 none
    .null .null = .ok o' ∧ gen2 = .ok o' ∧ o'.rv = SUCCESSFUL_RETURN := by
  obtain ⟨o, e, hn⟩ := of_holds (r := gen1) (p := fun o => decide (o.s.nV = 2 ∧ o.s.nC = 1)) (by decide +kernel)
  obtain ⟨hn, hm⟩ := of_decide_eq_true hn
  obtain ⟨o', e', hr⟩ := of_holds (r := gen2) (p := fun o => decide (o.rv = SUCCESSFUL_RETURN)) (by decide +kernel)
  refine ⟨o, e, o', ?_, e', of_decide_eq_true hr⟩
  have h2 : ∀ a b : ℚ, Holding o.s.nV (fileOf [a,b]) (some (vec [a,b])) := fun a b => fileOf_holding _ hn
  have h1 : ∀ a : ℚ, Holding o.s.nC (fileOf [a]) (some (vec [a])) := fun a => fileOf_holding _ hm
  rw [(C71_hotstart rootC 5 o.s _ _ _ _ _ 10 none .null .null).1 _ _ _ _ _ (h2 _ _) (h2 _ _) (h2 _ _) (h1 _) (h1 _), ← e']
  unfold gen2 hotC
  rw [e]
  rfl

/-- A hotstart from a file with text in it fails and changes nothing. -/
example : ∃ o, gen1 = .ok o ∧ o.s.hotstartFile rootC 5 (fileOf [40,-100]) (some (some [some (-2), none])) (fileOf [100,100]) none (fileOf [5]) 10
    none .null .null = .ok ⟨RET_UNABLE_TO_READ_FILE, 10, none, o.s⟩ := by
  obtain ⟨o, e, hn⟩ := of_holds (r := gen1) (p := fun o => decide (o.s.nV = 2 ∧ o.s.nC = 1)) (by decide +kernel)
  obtain ⟨hn, hm⟩ := of_decide_eq_true hn
  have hx : Unreadable o.s.nV (some (some [some (-2 : ℚ), none])) := by rw [hn]; exact .garbled [-2] [] (by decide)
  exact ⟨o, e, (C71_hotstart rootC 5 o.s _ _ _ _ _ 10 none .null .null).2 (by omega) (by simp [fileOf])
    ⟨Or.inl ⟨_, fileOf_holding _ hn⟩, Or.inr hx, Or.inl ⟨_, fileOf_holding _ hn⟩, fun _ => Or.inl ⟨_, .null⟩,
      fun _ => Or.inl ⟨_, fileOf_holding _ hm⟩, Or.inr (Or.inl hx)⟩⟩

/-- Full statement of C71 for hotstarts: success means that every file named held the numbers needed. -/
def C71_statement : Prop :=
  ∀ (sq : ℚ → ℚ) (fuel : Nat) (s : QPC ℚ) (fg fl fu flA fuA : FileArg ℚ) (nWSR : Int) (cputime : Option ℚ) (gB gC : QPB.Guess) (o : OutC ℚ),
    s.hotstartFile sq fuel fg fl fu flA fuA nWSR cputime gB gC = .ok o → o.rv = SUCCESSFUL_RETURN → ∃ g, Holding s.nV fg (some g)

/-- **C71 is violated**: a hotstart from a file that holds one of two numbers of the gradient reports success. -/
theorem C71_violated : ¬ C71_statement := by
  intro h
  obtain ⟨o, e, hn⟩ := of_holds (r := gen1) (p := fun o => decide (o.s.nV = 2) &&
    holds (o.s.hotstartFile rootC 5 (fileOf [40]) (fileOf [-2,-100]) (fileOf [100,100]) (fileOf [-50]) (fileOf [5]) 10 none .null .null)
      fun o' => decide (o'.rv = SUCCESSFUL_RETURN)) (by decide +kernel)
  rw [Bool.and_eq_true] at hn
  obtain ⟨hn, hh⟩ := hn
  obtain ⟨o', e', hr⟩ := of_holds hh
  obtain ⟨g, hg⟩ := h _ _ _ _ _ _ _ _ _ _ _ _ _ e' (of_decide_eq_true hr)
  rw [of_decide_eq_true hn] at hg
  generalize hf : fileOf [40] = f at hg
  cases hg with
  | file vs rest hl =>
    have := congrArg (fun f : FileArg ℚ => (f.bind id).map List.length) hf
    simp [fileOf] at this
    omega

/-- The run uses an array that is not there. -/
def usesNothing {α : Type} (r : Res α) : Bool :=
  match r with
  | .ub .nullDeref => true
  | _ => false

/-- The new matrices of C54 from files -/
def sqf (r : Res (OutC ℚ)) : Res (OutC ℚ) := do
  let o ← r
  QPC.hotstartNewFile rootC 5 o.s (fileOf [25,0,0,4]) (fileOf [40,-100]) (fileOf [4,3]) (fileOf [-2,-100]) (fileOf [100,100]) (fileOf [-50]) (fileOf [5])
    10 none .null .null

/-- **C71 is violated** (use after free): new matrices from files give the same solution as from arrays, but the next hotstart, which
succeeds after the one from arrays, accesses the Hessian after it has been freed. -/
theorem C71_dangling :
    (∃ o o', sqf gen1 = .ok o ∧ sq2 = .ok o' ∧ o.rv = SUCCESSFUL_RETURN ∧ o'.rv = SUCCESSFUL_RETURN ∧ (∀ i : Nat, i < 2 → o.s.x i = o'.s.x i)) ∧
    hotC (sqf gen1) [30,-100] (some [-2,-100]) (some [100,100]) (some [-50]) (some [5]) .null .null = .ub .nullDeref ∧
    ∃ o, hotC sq2 [30,-100] (some [-2,-100]) (some [100,100]) (some [-50]) (some [5]) .null .null = .ok o ∧ o.rv = SUCCESSFUL_RETURN := by
  obtain ⟨o, e, h⟩ := of_holds (r := sqf gen1) (p := fun o => holds sq2 fun o' =>
    decide (o.rv = SUCCESSFUL_RETURN ∧ o'.rv = SUCCESSFUL_RETURN ∧ ∀ i : Nat, i < 2 → o.s.x i = o'.s.x i)) (by decide +kernel)
  obtain ⟨o', e', h⟩ := of_holds h
  obtain ⟨h1, h2, h3⟩ := of_decide_eq_true h
  refine ⟨⟨o, o', e, e', h1, h2, h3⟩, ?_, ?_⟩
  · have : usesNothing (hotC (sqf gen1) [30,-100] (some [-2,-100]) (some [100,100]) (some [-50]) (some [5]) .null .null) = true := by decide +kernel
    generalize hotC (sqf gen1) [30,-100] (some [-2,-100]) (some [100,100]) (some [-50]) (some [5]) .null .null = r at this
    cases r with
    | ok o => cases this
    | ub e => cases e <;> first | rfl | cases this
  · obtain ⟨o, e, h⟩ := of_holds (r := hotC sq2 [30,-100] (some [-2,-100]) (some [100,100]) (some [-50]) (some [5]) .null .null)
      (p := fun o => decide (o.rv = SUCCESSFUL_RETURN)) (by decide +kernel)
    exact ⟨o, e, of_decide_eq_true h⟩

/-- Bounds only: a cold start from files that succeeds, one with a missing file, and one with a Cholesky factor in a file. -/
example : (start 2 HST_UNKNOWN plain).initFile rootC 5 (fileOf [4,0,0,9]) (fileOf [-8,18]) (fileOf [0,0]) none 10 none none none none none =
    (start 2 HST_UNKNOWN plain).init rootC 5 (some (vec [4,0,0,9])) (some (vec [-8,18])) (some (vec [0,0])) none 10 none none none none none :=
  C71_initB rootC 5 _ (fileOf_holding _ rfl) (fileOf_holding _ rfl) (fileOf_holding _ rfl) .null 10 none none none none

example : holds ((start 2 HST_UNKNOWN plain).initFile rootC 5 (fileOf [4,0,0,9]) (fileOf [-8,18]) (fileOf [0,0]) none 10 none none none none none)
    (fun o => decide (o.rv = SUCCESSFUL_RETURN ∧ o.s.x 0 = 2 ∧ o.s.x 1 = 0)) = true := by decide +kernel

example : ∃ rv s', (start 2 HST_UNKNOWN plain).initFile rootC 5 (fileOf [4,0,0,9]) (fileOf [-8,18]) (some none) none 10 none none none none none =
    .ok ⟨rv, 10, none, s'⟩ ∧ rv ≠ SUCCESSFUL_RETURN ∧ s'.status = QPS_NOTINITIALISED ∧ rv = RET_UNABLE_TO_READ_FILE := by
  obtain ⟨rv, s', h1, h2, h3, h4⟩ := C71_init_unreadableB rootC 5 (start 2 HST_UNKNOWN plain) (fH := fileOf [4,0,0,9]) (fg := fileOf [-8,18])
    (fl := some none) (fu := none) (by decide) (Or.inl ⟨_, fileOf_holding _ rfl⟩) (Or.inl ⟨_, fileOf_holding _ rfl⟩) (Or.inr .missing)
    (Or.inl ⟨_, .null⟩) (Or.inr (Or.inr (Or.inl .missing))) 10 none none none none none
  exact ⟨rv, s', h1, h2, h3, h4 rfl rfl⟩

example : holds ((start 2 HST_UNKNOWN plain).initFile rootC 5 (fileOf [4,0,0,9]) (fileOf [-8,18]) (fileOf [0,0]) none 10 none none none none
    (fileOf [2,0,0,3])) (fun o => decide (o.rv = SUCCESSFUL_RETURN ∧ o.s.x 0 = 2 ∧ o.s.x 1 = 0)) = true := by decide +kernel

end QpOASES.Props
