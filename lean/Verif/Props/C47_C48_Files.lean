import Verif.Model.FileIO
import Verif.Proofs.Loops
import Mathlib.Tactic.Linarith
import Mathlib.Tactic.Ring

/-!
C47 (reading numbers from text files), C48 (MAT-file export).
-/
namespace QpOASES.Props
open ReturnValue

variable {α : Type}

/-- The first `vs.length` elements from position `k` on replaced by `vs`. -/
def patch (d : Mem α) (k : Nat) (vs : List α) : Mem α :=
  ⟨d.size, fun i => if k ≤ i ∧ i < k + vs.length then vs[i - k]? else d.cell i⟩

theorem patch_nil (d : Mem α) (k : Nat) : patch d k [] = d := by
  cases d
  simp only [patch, Mem.mk.injEq, true_and]
  funext i
  have : ¬ (k ≤ i ∧ i < k + 0) := by omega
  simp [this]

theorem patch_cons (d : Mem α) (k : Nat) (v : α) (vs : List α) :
    patch ⟨d.size, fun i => if i = k then some v else d.cell i⟩ (k+1) vs = patch d k (v :: vs) := by
  simp only [patch, Mem.mk.injEq, true_and]
  funext i
  by_cases h : i = k
  · subst h; simp
  · by_cases h2 : k + 1 ≤ i ∧ i < k + 1 + vs.length
    · have h3 : k ≤ i ∧ i < k + (v :: vs).length := by simp; omega
      have h4 : i - k = (i - (k+1)) + 1 := by omega
      rw [if_pos h2, if_pos h3, h4, List.getElem?_cons_succ]
    · have h3 : ¬ (k ≤ i ∧ i < k + (v :: vs).length) := by simp; omega
      rw [if_neg h2, if_neg h3, if_neg h]

theorem readLoop_numbers (vs : List α) (f : TextFile α) :
    ∀ (todo k : Nat) (d : Mem α) (x : Option α), vs.length ≤ todo → k + vs.length ≤ d.size →
      readLoop todo k ⟨d, x, vs.map some ++ f⟩ =
        readLoop (todo - vs.length) (k + vs.length)
          ⟨patch d k vs, (vs.getLast?).or x, f⟩ := by
  induction vs with
  | nil => intro todo k d x _ _; simp [patch_nil]
  | cons v vs ih =>
    intro todo k d x ht hk
    obtain ⟨t, rfl⟩ : ∃ t, todo = t + 1 := ⟨todo - 1, by simp at ht; omega⟩
    simp only [List.length_cons] at ht hk
    simp only [readLoop, fscanf, List.map_cons, List.cons_append]
    rw [if_neg (by decide), Mem.set_ok d v (by omega)]
    simp only [Res.bind_ok]
    rw [ih t (k+1) _ (some v) (by omega) (by simpa using by omega), patch_cons]
    have e1 : t + 1 - (vs.length + 1) = t - vs.length := by omega
    have e2 : k + 1 + vs.length = k + (vs.length + 1) := by omega
    simp only [List.length_cons, e1, e2]
    congr 2
    cases h : vs.getLast? with
    | none =>
      rw [List.getLast?_eq_none_iff] at h; subst h; simp
    | some w =>
      rw [List.getLast?_cons, h]; simp

/-- End of file: every remaining element is filled with the number read last. -/
theorem readLoop_eof (w : α) : ∀ (todo k : Nat) (d : Mem α), k + todo ≤ d.size →
    readLoop todo k ⟨d, some w, []⟩ = .ok (SUCCESSFUL_RETURN, patch d k (List.replicate todo w)) := by
  intro todo
  induction todo with
  | zero => intro k d _; simp [readLoop, patch_nil]
  | succ t ih =>
    intro k d hk
    have e : readLoop (t+1) k ⟨d, some w, []⟩ = (d.set k w >>= fun d =>
        readLoop t (k+1) ⟨d, some w, []⟩) := rfl
    rw [e, Mem.set_ok d w (by omega)]
    simp only [Res.bind_ok]
    rw [ih (k+1) _ (by simpa using by omega), patch_cons]
    rfl

/-! ### C47 -/

/-- `file` starts with exactly the requested numbers `vs`. -/
def HoldsNumbers (file : Option (TextFile α)) (vs : List α) : Prop :=
  ∃ rest, file = some (vs.map some ++ rest)

/-- Full statement of C47: success is returned exactly if all requested numbers are there, and then the
array holds them (and is otherwise unchanged). -/
def C47_statement (α : Type) : Prop :=
  ∀ (data : Mem α) (nrow ncol : Nat) (file : Option (TextFile α)), nrow * ncol ≤ data.size →
    ∃ r d, readFromFile data nrow ncol file = .ok (r, d) ∧
      (r = SUCCESSFUL_RETURN → ∃ vs, vs.length = nrow * ncol ∧ HoldsNumbers file vs ∧ d = patch data 0 vs) ∧
      ((∃ vs, vs.length = nrow * ncol ∧ HoldsNumbers file vs) → r = SUCCESSFUL_RETURN)

/-- C47 is violated: a file that ends after the first of two requested numbers is accepted, and the second
element is a copy of the first; an empty file makes the code read an uninitialised variable. -/
theorem C47_violated : ¬ C47_statement Int := by
  intro H
  obtain ⟨r, d, h1, h2, -⟩ := H (Mem.alloc 2) 2 1 (some [some 7]) (by decide)
  have e : readFromFile (Mem.alloc 2) 2 1 (some [some (7 : Int)]) =
      .ok (SUCCESSFUL_RETURN, patch (Mem.alloc 2) 0 [7, 7]) := by
    have := readLoop_numbers [7] [] 2 0 (Mem.alloc 2 : Mem Int) none (by decide) (by decide)
    simp only [readFromFile]
    rw [show [some (7:Int)] = [7].map some ++ [] from rfl, show 2 * 1 = 2 from rfl, this]
    have h3 := readLoop_eof (7:Int) 1 1 (patch (Mem.alloc 2) 0 [7]) (by decide)
    simp only [List.length_cons, List.length_nil, List.getLast?_singleton, Option.or] at *
    refine h3.trans ?_
    simp only [patch, Mem.alloc, Res.ok.injEq, Prod.mk.injEq, true_and, Mem.mk.injEq]
    funext i
    match i with
    | 0 => rfl
    | 1 => rfl
    | n+2 =>
      have a1 : ¬ (1 ≤ n + 2 ∧ n + 2 < 1 + 1) := by omega
      have a2 : ¬ (0 ≤ n + 2 ∧ n + 2 < 0 + 1) := by omega
      have a3 : ¬ (0 ≤ n + 2 ∧ n + 2 < 0 + 2) := by omega
      simp
  rw [e] at h1
  simp only [Res.ok.injEq, Prod.mk.injEq] at h1
  obtain ⟨vs, hl, ⟨rest, hr⟩, -⟩ := h2 h1.1.symm
  simp only [Option.some.injEq] at hr
  have := congrArg List.length hr
  simp at this
  omega

/-- C47, what holds, for every size and content:
(1) a file that holds all requested numbers is read completely and correctly;
(2) a file with an unparsable token before the last requested number is rejected;
(3) a file that cannot be opened is rejected;
(4) a file that ends early after at least one number is wrongly accepted and the rest of the array is
    filled with the last number;
(5) an empty file, if at least one number is requested, makes the code use an uninitialised variable. -/
theorem C47_read_partial (data : Mem α) (nrow ncol : Nat) (hsz : nrow * ncol ≤ data.size) :
    (∀ (vs : List α) rest, vs.length = nrow * ncol →
      readFromFile data nrow ncol (some (vs.map some ++ rest)) =
        .ok (SUCCESSFUL_RETURN, patch data 0 vs)) ∧
    (∀ (vs : List α) rest, vs.length < nrow * ncol →
      ∃ d, readFromFile data nrow ncol (some (vs.map some ++ none :: rest)) =
        .ok (RET_UNABLE_TO_READ_FILE, d)) ∧
    (readFromFile data nrow ncol none = .ok (RET_UNABLE_TO_OPEN_FILE, data)) ∧
    (∀ (vs : List α) w, vs.getLast? = some w → vs.length < nrow * ncol →
      readFromFile data nrow ncol (some (vs.map some)) =
        .ok (SUCCESSFUL_RETURN,
          patch (patch data 0 vs) vs.length (List.replicate (nrow * ncol - vs.length) w))) ∧
    (0 < nrow * ncol → readFromFile data nrow ncol (some []) = .ub .uninitialised) := by
  refine ⟨fun vs rest hl => ?_, fun vs rest hl => ?_, rfl, fun vs w hw hl => ?_, fun hp => ?_⟩
  · simp only [readFromFile]
    rw [readLoop_numbers vs rest _ 0 data none hl.le (by omega), hl, Nat.sub_self]
    simp [readLoop]
  · simp only [readFromFile]
    rw [readLoop_numbers vs _ _ 0 data none hl.le (by omega)]
    obtain ⟨t, ht⟩ : ∃ t, nrow * ncol - vs.length = t + 1 := ⟨nrow * ncol - vs.length - 1, by omega⟩
    rw [ht]
    exact ⟨_, by simp [readLoop, fscanf]; rfl⟩
  · simp only [readFromFile]
    rw [show vs.map some = vs.map some ++ [] by simp,
      readLoop_numbers vs [] _ 0 data none hl.le (by omega), hw]
    simp only [Option.or]
    rw [readLoop_eof w _ _ _ (by simp [patch]; omega)]
    simp
  · simp only [readFromFile]
    obtain ⟨t, ht⟩ : ∃ t, nrow * ncol = t + 1 := ⟨nrow * ncol - 1, by omega⟩
    rw [ht]; simp [readLoop, fscanf]

theorem readIntLoop_numbers (vs : List Int) (f : TextFile Int) :
    ∀ (todo k : Nat) (d : Mem Int), vs.length ≤ todo → k + vs.length ≤ d.size →
      readIntLoop todo k d (vs.map some ++ f) =
        readIntLoop (todo - vs.length) (k + vs.length) (patch d k vs) f := by
  induction vs with
  | nil => intro todo k d _ _; simp [patch_nil]
  | cons v vs ih =>
    intro todo k d ht hk
    obtain ⟨t, rfl⟩ : ∃ t, todo = t + 1 := ⟨todo - 1, by simp at ht; omega⟩
    simp only [List.length_cons] at ht hk
    simp only [readIntLoop, List.map_cons, List.cons_append]
    rw [Mem.set_ok d v (by omega)]
    simp only [Res.bind_ok]
    rw [ih t (k+1) _ (by omega) (by simpa using by omega), patch_cons]
    have e1 : t + 1 - (vs.length + 1) = t - vs.length := by omega
    have e2 : k + 1 + vs.length = k + (vs.length + 1) := by omega
    simp only [List.length_cons, e1, e2]

theorem readIntLoop_eof : ∀ (todo k : Nat) (d : Mem Int),
    readIntLoop todo k d [] = .ok (SUCCESSFUL_RETURN, d) := by
  intro todo
  induction todo with
  | zero => intro k d; rfl
  | succ t ih => intro k d; simp [readIntLoop, ih]

/-- C47, integer version: (1)-(3) as before; (4) a file that ends early, even an empty one, is wrongly
accepted and leaves the rest of the array as it was. -/
theorem C47_readInt_partial (data : Mem Int) (n : Nat) (hsz : n ≤ data.size) :
    (∀ (vs : List Int) rest, vs.length = n →
      readIntFromFile data n (some (vs.map some ++ rest)) = .ok (SUCCESSFUL_RETURN, patch data 0 vs)) ∧
    (∀ (vs : List Int) rest, vs.length < n →
      ∃ d, readIntFromFile data n (some (vs.map some ++ none :: rest)) = .ok (RET_UNABLE_TO_READ_FILE, d)) ∧
    (readIntFromFile data n none = .ok (RET_UNABLE_TO_OPEN_FILE, data)) ∧
    (∀ vs : List Int, vs.length < n →
      readIntFromFile data n (some (vs.map some)) = .ok (SUCCESSFUL_RETURN, patch data 0 vs)) := by
  refine ⟨fun vs rest hl => ?_, fun vs rest hl => ?_, rfl, fun vs hl => ?_⟩
  · simp only [readIntFromFile]
    rw [readIntLoop_numbers vs rest _ 0 data hl.le (by omega), hl, Nat.sub_self]
    simp [readIntLoop]
  · simp only [readIntFromFile]
    rw [readIntLoop_numbers vs _ _ 0 data hl.le (by omega)]
    obtain ⟨t, ht⟩ : ∃ t, n - vs.length = t + 1 := ⟨n - vs.length - 1, by omega⟩
    rw [ht]
    exact ⟨_, by simp [readIntLoop]; rfl⟩
  · simp only [readIntFromFile]
    rw [show vs.map some = vs.map some ++ [] by simp,
      readIntLoop_numbers vs [] _ 0 data hl.le (by omega), readIntLoop_eof]

/-- The array holds the values `v 0, v 1, ...` in its first `n` elements. -/
def Holds (d : Mem α) (n : Nat) (v : Nat → α) : Prop := n ≤ d.size ∧ ∀ k < n, d.cell k = some (v k)

theorem writeRow_eq (d : Mem α) (v : Nat → α) (i ncol N : Nat) (hd : Holds d N v) :
    ∀ n j, i*ncol + j + n ≤ N →
      writeRow d i ncol j n = .ok ((List.range n).map fun t => some (v (i*ncol + j + t))) := by
  intro n
  induction n with
  | zero => intro j _; simp [writeRow]
  | succ n ih =>
    intro j hj
    rw [writeRow, Mem.get_ok (by have := hd.1; omega) (hd.2 _ (by omega))]
    simp only [Res.bind_ok]
    rw [ih (j+1) (by omega), List.range_succ_eq_map]
    simp only [Res.bind_ok, Res.pure_eq, List.map_cons, Nat.add_zero, List.map_map, Res.ok.injEq,
      List.cons.injEq, true_and]
    apply List.map_congr_left
    intro t _
    simp only [Function.comp_apply]
    congr 2; omega

theorem writeRows_eq (d : Mem α) (v : Nat → α) (ncol N : Nat) (hd : Holds d N v) :
    ∀ n i, (i + n) * ncol ≤ N →
      writeRows d ncol i n = .ok ((List.range (n*ncol)).map fun t => some (v (i*ncol + t))) := by
  intro n
  induction n with
  | zero => intro i _; simp [writeRows]
  | succ n ih =>
    intro i hi
    have e0 : (i + (n+1)) * ncol = i*ncol + ncol + n*ncol := by ring
    rw [writeRows, writeRow_eq d v i ncol N hd ncol 0 (by omega)]
    simp only [Res.bind_ok]
    rw [ih (i+1) (by have e : (i+1+n)*ncol = (i+(n+1))*ncol := by ring
                     omega)]
    simp only [Res.bind_ok, Res.pure_eq, Res.ok.injEq, Nat.add_zero]
    rw [show (n+1)*ncol = ncol + n*ncol by ring, List.range_add, List.map_append, List.map_map]
    congr 1
    apply List.map_congr_left
    intro t _
    simp only [Function.comp_apply]
    congr 2
    rw [Nat.add_mul]; omega

/-- C47, round trip: a matrix written with `writeIntoFile` and read with `readFromFile` with the same
dimensions comes back unchanged. -/
theorem C47_write_read_roundtrip (src dst : Mem α) (nrow ncol : Nat) (v : Nat → α)
    (hs : Holds src (nrow*ncol) v) (hd : nrow*ncol ≤ dst.size) (old : TextFile α) :
    ∃ f d, writeIntoFile src nrow ncol (some old) false = .ok (SUCCESSFUL_RETURN, some f) ∧
      readFromFile dst nrow ncol (some f) = .ok (SUCCESSFUL_RETURN, d) ∧ Holds d (nrow*ncol) v := by
  have h1 := writeRows_eq src v ncol (nrow*ncol) hs nrow 0 (by simp)
  refine ⟨_, patch dst 0 ((List.range (nrow*ncol)).map v), by simp [writeIntoFile, h1]; rfl, ?_, ?_, ?_⟩
  · have h2 := (C47_read_partial dst nrow ncol hd).1 ((List.range (nrow*ncol)).map v) [] (by simp)
    simpa [List.map_map, Function.comp_def] using h2
  · exact hd
  · intro k hk
    simp [patch, hk]

/-- Non-vacuity: a 2x3 matrix is written and read back. -/
example : ∃ f d, writeIntoFile (Mem.ofList [1,2,3,4,5,6]) 2 3 (some [some (9:Int)]) false =
      .ok (SUCCESSFUL_RETURN, some f) ∧
    readFromFile (Mem.alloc 6) 2 3 (some f) = .ok (SUCCESSFUL_RETURN, d) ∧
    Holds d 6 (fun k => (k : Int) + 1) :=
  C47_write_read_roundtrip _ _ 2 3 _ ⟨by decide, by decide⟩ (by decide) _

/-! ### C48 -/

theorem fwrite_room {f : MatFile α} {xs : List (MatItem α)} (h : xs.length ≤ f.room) :
    f.fwrite xs = (xs.length, ⟨f.items ++ xs, f.room - xs.length⟩) := by
  simp [MatFile.fwrite, h, List.take_of_length_le]

theorem matCol_eq (d : Mem α) (v : Nat → α) (nRows nCols ii : Nat) (hi : ii < nCols)
    (hd : Holds d (nRows*nCols) v) :
    ∀ n jj (f : MatFile α), jj + n ≤ nRows →
      (n ≤ f.room → matCol d nCols ii jj n f =
        .ok (true, ⟨f.items ++ (List.range n).map (fun t => .real (v ((jj+t)*nCols + ii))), f.room - n⟩)) ∧
      (f.room < n → ∃ f', matCol d nCols ii jj n f = .ok (false, f')) := by
  intro n
  induction n with
  | zero => intro jj f _; simp [matCol]
  | succ n ih =>
    intro jj f hj
    have hlt : jj*nCols + ii < nRows*nCols := by
      have : (jj+1)*nCols ≤ nRows*nCols := Nat.mul_le_mul_right _ (by omega)
      rw [Nat.add_mul] at this; omega
    have hget : d.get ((jj*nCols + ii : Nat) : Int) = .ok (v (jj*nCols + ii)) :=
      Mem.get_ok (by have := hd.1; omega) (hd.2 _ hlt)
    by_cases hr : 1 ≤ f.room
    · have hfw := fwrite_room (f := f) (xs := [.real (v (jj*nCols + ii))]) (by simpa using hr)
      have hstep : matCol d nCols ii jj (n+1) f = matCol d nCols ii (jj+1) n
          ⟨f.items ++ [.real (v (jj*nCols + ii))], f.room - 1⟩ := by
        rw [matCol, hget]; simp [hfw]
      obtain ⟨i1, i2⟩ := ih (jj+1) ⟨f.items ++ [.real (v (jj*nCols + ii))], f.room - 1⟩ (by omega)
      constructor
      · intro h
        rw [hstep, i1 (by simp; omega)]
        simp only [Res.ok.injEq, Prod.mk.injEq, true_and, MatFile.mk.injEq]
        refine ⟨?_, by omega⟩
        rw [List.range_succ_eq_map]
        simp only [List.append_assoc, List.cons_append, List.nil_append, List.map_cons, Nat.add_zero, List.map_map]
        congr 2
        apply List.map_congr_left
        intro t _
        simp only [Function.comp_apply]
        congr 4; omega
      · intro h
        rw [hstep]
        exact i2 (by simp; omega)
    · have h0 : f.room = 0 := by omega
      constructor
      · intro h; omega
      · intro _
        rw [matCol, hget]
        simp [MatFile.fwrite, h0]

theorem matCols_eq (d : Mem α) (v : Nat → α) (nRows nCols : Nat) (hd : Holds d (nRows*nCols) v) :
    ∀ n ii (f : MatFile α), ii + n ≤ nCols →
      (n*nRows ≤ f.room → ∃ l : List (MatItem α), matCols d nRows nCols ii n f =
          .ok (true, ⟨f.items ++ l, f.room - n*nRows⟩) ∧ l.length = n*nRows ∧
        ∀ t < n, ∀ j < nRows, l[t*nRows + j]? = some (.real (v (j*nCols + (ii + t))))) ∧
      (f.room < n*nRows → ∃ f', matCols d nRows nCols ii n f = .ok (false, f')) := by
  intro n
  induction n with
  | zero => intro ii f _; simp [matCols]
  | succ n ih =>
    intro ii f hi
    have hcol := matCol_eq d v nRows nCols ii (by omega) hd nRows 0 f (by omega)
    have e0 : (n+1)*nRows = n*nRows + nRows := by ring
    by_cases hr : nRows ≤ f.room
    · obtain ⟨i1, i2⟩ := ih (ii+1) ⟨f.items ++ (List.range nRows).map
        (fun t => .real (v ((0+t)*nCols + ii))), f.room - nRows⟩ (by omega)
      constructor
      · intro h
        obtain ⟨l, h1, h2, h3⟩ := i1 (by simp; omega)
        refine ⟨(List.range nRows).map (fun t => .real (v ((0+t)*nCols + ii))) ++ l, ?_, ?_, ?_⟩
        · rw [matCols, hcol.1 hr]
          simp only [Res.bind_ok, if_true, h1, Res.ok.injEq, Prod.mk.injEq, true_and, MatFile.mk.injEq,
            List.append_assoc]
          omega
        · simp [h2]; omega
        · intro t ht j hj
          cases t with
          | zero => simp [List.getElem?_append_left, hj]
          | succ t =>
            rw [List.getElem?_append_right (by simp; rw [Nat.add_mul]; omega)]
            have e1 : (t+1)*nRows + j - nRows = t*nRows + j := by rw [Nat.add_mul]; omega
            simp only [List.length_map, List.length_range, e1]
            rw [h3 t (by omega) j hj]
            congr 4; omega
      · intro h
        obtain ⟨f', h1⟩ := i2 (by simp; omega)
        exact ⟨f', by rw [matCols, hcol.1 hr]; simpa using h1⟩
    · obtain ⟨f', h1⟩ := hcol.2 (by omega)
      exact ⟨fun h => by omega, fun _ => ⟨f', by rw [matCols, h1]; simp⟩⟩

/-- Number of items of an export with a name of `len` characters. -/
def matSize (len nRows nCols : Nat) : Nat := 1 + (len + 1) + nRows * nCols

/-- C48: on a device with enough room, the export appends the header with the given dimensions, the
zero-terminated name, and exactly `nRows*nCols` numbers; the number at column-major position
`(row j, column i)` is the row-major input element `data[j*nCols+i]`. -/
theorem C48_matfile_layout (f : MatFile α) (d : Mem α) (v : Nat → α) (nRows nCols : Nat)
    (hd : Holds d (nRows*nCols) v) (name : List Char) (hroom : matSize name.length nRows nCols ≤ f.room) :
    ∃ f' nums, writeIntoMatFile (some f) (some d) nRows nCols (some name) =
        .ok (SUCCESSFUL_RETURN, some f') ∧
      f'.items = f.items ++ [.header 0 nRows nCols 0 (name.length + 1)] ++ (name.map .char ++ [.nul]) ++ nums ∧
      nums.length = nRows * nCols ∧
      ∀ i < nCols, ∀ j < nRows, nums[i*nRows + j]? = some (.real (v (j*nCols + i))) := by
  unfold matSize at hroom
  have w1 := fwrite_room (f := f) (xs := [.header 0 nRows nCols 0 (name.length + 1)]) (by simp; omega)
  have w2 := fwrite_room (f := ⟨f.items ++ [.header 0 nRows nCols 0 (name.length + 1)], f.room - 1⟩)
    (xs := name.map .char ++ [.nul]) (by simp; omega)
  obtain ⟨c1, -⟩ := matCols_eq d v nRows nCols hd nCols 0
    ⟨f.items ++ [.header 0 nRows nCols 0 (name.length + 1)] ++ (name.map .char ++ [.nul]),
      f.room - 1 - (name.length + 1)⟩ (by omega)
  have e : nCols * nRows = nRows * nCols := Nat.mul_comm _ _
  obtain ⟨l, h1, h2, h3⟩ := c1 (by simp; omega)
  refine ⟨⟨f.items ++ [.header 0 nRows nCols 0 (name.length + 1)] ++ (name.map .char ++ [.nul]) ++ l,
    f.room - 1 - (name.length + 1) - nCols * nRows⟩, l, ?_, rfl, h2.trans e, fun i hi j hj => by simpa using h3 i hi j hj⟩
  · simp only [List.length_append, List.length_map, List.length_cons, List.length_nil,
      Nat.zero_add] at w1 w2
    have n1 : ¬ ((nRows : Int) < 0 ∨ (nCols : Int) < 0) := by omega
    have n2 : ¬ (name.length + 1 < 1) := by omega
    have n3 : ¬ (1 < 1) := by omega
    simp only [writeIntoMatFile, n1, if_false, w1, n3, w2, n2, Int.toNat_natCast, h1, Res.bind_ok,
      if_true, Res.pure_eq]

/-- C48, failure: if the device cannot take everything and the matrix is not empty, the export reports
`RET_UNABLE_TO_WRITE_FILE`. -/
theorem C48_full_device_reported (f : MatFile α) (d : Mem α) (v : Nat → α) (nRows nCols : Nat)
    (hd : Holds d (nRows*nCols) v) (name : List Char) (hne : 0 < nRows * nCols)
    (hroom : f.room < matSize name.length nRows nCols) :
    ∃ f', writeIntoMatFile (some f) (some d) nRows nCols (some name) =
        .ok (RET_UNABLE_TO_WRITE_FILE, some f') := by
  unfold matSize at hroom
  have n1 : ¬ ((nRows : Int) < 0 ∨ (nCols : Int) < 0) := by omega
  simp only [writeIntoMatFile, n1, if_false, Int.toNat_natCast]
  by_cases h1 : f.room = 0
  · exact ⟨_, by simp [MatFile.fwrite, h1]; rfl⟩
  have w1 := fwrite_room (f := f) (xs := [.header 0 nRows nCols 0 (name.length + 1)]) (by simp; omega)
  simp only [List.length_cons, List.length_nil] at w1
  simp only [w1]
  by_cases h2 : f.room = 1
  · exact ⟨_, by simp [MatFile.fwrite, h2]; rfl⟩
  have e : nCols * nRows = nRows * nCols := Nat.mul_comm _ _
  -- after the name
  generalize hg : (MatFile.fwrite ⟨f.items ++ [.header 0 nRows nCols 0 (name.length + 1)], f.room - (0+1)⟩
    (name.map .char ++ [.nul])) = g
  have g1 : ¬ (g.1 < 1) := by
    rw [← hg]; simp [MatFile.fwrite]; omega
  have g2 : g.2.room < nCols * nRows := by
    rw [← hg, e]; simp [MatFile.fwrite]; omega
  obtain ⟨-, c2⟩ := matCols_eq d v nRows nCols hd nCols 0 g.2 (by omega)
  obtain ⟨f', h3⟩ := c2 g2
  exact ⟨f', by simp [g1, h3]⟩

/-- C48, invalid arguments are rejected without touching the file. -/
theorem C48_invalid_arguments (f : Option (MatFile α)) (d : Option (Mem α)) (nRows nCols : Int)
    (name : Option (List Char))
    (h : f = none ∨ d = none ∨ nRows < 0 ∨ nCols < 0 ∨ name = none) :
    writeIntoMatFile f d nRows nCols name = .ok (RET_INVALID_ARGUMENTS, f) := by
  cases f <;> cases d <;> cases name <;> simp_all [writeIntoMatFile]

theorem convert_holds (cast : Int → α) (d : Mem Int) (v : Nat → Int) (N : Nat) (hd : Holds d N v) :
    ∃ e : Mem α, forUp (fun i (e : Mem α) => do
        let v ← d.get (i : Int)
        e.set (i : Int) (cast v)) 0 N (Mem.alloc N) = .ok e ∧ Holds e N (fun k => cast (v k)) := by
  have := forUp_inv (f := fun i (e : Mem α) => do
        let v ← d.get (i : Int)
        e.set (i : Int) (cast v)) (fun i e => e.size = N ∧ ∀ k < i, e.cell k = some (cast (v k))) N 0
        (Mem.alloc N) ⟨rfl, by omega⟩ ?_
  · obtain ⟨e, h1, h2, h3⟩ := this
    exact ⟨e, h1, h2.ge, by simpa using h3⟩
  · rintro i s - hi ⟨h1, h2⟩
    rw [Mem.get_ok (by have := hd.1; omega) (hd.2 i (by omega))]
    simp only [Res.bind_ok]
    rw [Mem.set_ok s _ (by omega)]
    refine ⟨_, rfl, h1, fun k hk => ?_⟩
    by_cases h : k = i
    · simp [h]
    · simp [h, h2 k (by omega)]

/-- C48, integer matrices: same layout with the converted numbers. -/
theorem C48_matfile_int (cast : Int → α) (f : MatFile α) (d : Mem Int) (v : Nat → Int) (nRows nCols : Nat)
    (hd : Holds d (nRows*nCols) v) (name : List Char) (hroom : matSize name.length nRows nCols ≤ f.room) :
    ∃ f' nums, writeIntIntoMatFile cast (some f) d nRows nCols (some name) =
        .ok (SUCCESSFUL_RETURN, some f') ∧
      f'.items = f.items ++ [.header 0 nRows nCols 0 (name.length + 1)] ++ (name.map .char ++ [.nul]) ++ nums ∧
      nums.length = nRows * nCols ∧
      ∀ i < nCols, ∀ j < nRows, nums[i*nRows + j]? = some (.real (cast (v (j*nCols + i)))) := by
  obtain ⟨e, h1, h2⟩ := convert_holds cast d v _ hd
  obtain ⟨f', nums, h3⟩ := C48_matfile_layout f e _ nRows nCols h2 name hroom
  exact ⟨f', nums, by simp only [writeIntIntoMatFile, h1, Res.bind_ok]; exact h3.1, h3.2⟩

/-- Non-vacuity: a 2x3 matrix named "A". -/
example : writeIntoMatFile (some ⟨[], 100⟩) (some (Mem.ofList [1,2,3,4,5,6])) 2 3 (some ['A']) =
    .ok (SUCCESSFUL_RETURN, some ⟨[.header 0 2 3 0 2, .char 'A', .nul,
      .real (1:Nat), .real 4, .real 2, .real 5, .real 3, .real 6], 91⟩) := by
  rfl

end QpOASES.Props
