import Verif.Spec.Message

/-!
C45 (simple status), C49 (codes pass through the message handler), C59 (handler without output file).
-/
namespace QpOASES.Props
open ReturnValue

/-! ### C45 -/

/-- C45: the five classes of the simple status, for every return value. -/
theorem C45_simple_status (r : ReturnValue) :
    (simpleStatus r = 0 ↔ r = SUCCESSFUL_RETURN) ∧
    (simpleStatus r = 1 ↔ r = RET_MAX_NWSR_REACHED) ∧
    (simpleStatus r = -2 ↔ r = RET_INIT_FAILED_INFEASIBILITY ∨ r = RET_HOTSTART_STOPPED_INFEASIBILITY) ∧
    (simpleStatus r = -3 ↔ r = RET_INIT_FAILED_UNBOUNDEDNESS ∨ r = RET_HOTSTART_STOPPED_UNBOUNDEDNESS) ∧
    (simpleStatus r = -1 ↔ ¬ (r = SUCCESSFUL_RETURN ∨ r = RET_MAX_NWSR_REACHED ∨
      r = RET_INIT_FAILED_INFEASIBILITY ∨ r = RET_HOTSTART_STOPPED_INFEASIBILITY ∨
      r = RET_INIT_FAILED_UNBOUNDEDNESS ∨ r = RET_HOTSTART_STOPPED_UNBOUNDEDNESS)) := by
  cases r <;> simp [simpleStatus]

/-! ### the list of messages is complete -/

set_option maxRecDepth 8000 in
theorem lookup_listed (r : ReturnValue) (hr : r ≠ TERMINAL_LIST_ELEMENT) :
    ∃ e, lookup r returnValueList = some e ∧ e.key = r ∧
      (e.visible = false ↔ r = RET_AVAILABLE_WITH_LINUX_ONLY) := by
  cases r <;> first | exact absurd rfl hr | exact ⟨_, rfl, rfl, by decide⟩

theorem mem_of_lookup {r : ReturnValue} {l : List MsgEntry} {e : MsgEntry} (h : lookup r l = some e) :
    e ∈ l := by
  induction l with
  | nil => simp [lookup] at h
  | cons a as ih =>
    simp only [lookup] at h
    split at h
    · simp at h
    · split at h
      · simp at h; simp [h]
      · exact List.mem_cons_of_mem _ (ih h)

theorem code_pos_ne {r : ReturnValue} (h : 0 ≤ r.code) : r ≠ TERMINAL_LIST_ELEMENT := by
  rintro rfl; exact absurd h (by decide)

theorem success_code : SUCCESSFUL_RETURN.code = 0 := by decide

/-! ### printing -/

theorem print_ok {fuel : Nat} (hf : 0 < fuel) (h : Handler) (hh : h.hasFile = true) (o : Output) :
    Handler.print fuel h o = .ok { h with out := h.out ++ [o] } := by
  cases fuel with
  | zero => omega
  | succ n => simp [Handler.print, hh]

/-- Handlers that differ only in the indentation counter and the output. -/
def SameConfig (h h' : Handler) : Prop :=
  h'.errorVis = h.errorVis ∧ h'.warningVis = h.warningVis ∧ h'.infoVis = h.infoVis ∧
    h'.hasFile = h.hasFile

theorem printMessage_ok {fuel : Nat} (hf : 0 < fuel) (h : Handler) (hh : h.hasFile = true)
    (e : MsgEntry) (x : Option String) (s : Severity) :
    ∃ h', Handler.printMessage (Handler.print fuel) h e x s = .ok h' ∧ SameConfig h h' ∧
      ∃ o, h'.out = h.out ++ o ∧ messagesOf o = [(s, e.data, x)] := by
  obtain ⟨ev, wv, iv, hf', c, out⟩ := h
  simp only at hh
  subst hh
  rcases lt_trichotomy c 0 with hc | hc | hc
  · have h2 : ¬ (c > 0) := by omega
    cases s <;>
      simp [Handler.printMessage, print_ok hf, hc, SameConfig, messagesOf]
  · subst hc
    cases s <;>
      simp [Handler.printMessage, print_ok hf, SameConfig, messagesOf]
  · have h2 : ¬ (c < 0) := by omega
    cases s <;>
      simp [Handler.printMessage, print_ok hf, h2, hc, SameConfig, messagesOf]

theorem throwMessage_ok {fuel : Nat} (hf : 0 < fuel) (h : Handler) (hh : h.hasFile = true)
    (r : ReturnValue) (hr : r ≠ TERMINAL_LIST_ELEMENT) (x : Option String) (v : Bool) (s : Severity) :
    ∃ h', Handler.throwMessage (Handler.print fuel) h r x v s = .ok (r, h') ∧ SameConfig h h' ∧
      (v = false ∨ r = RET_AVAILABLE_WITH_LINUX_ONLY → h' = h) ∧
      (v = true → r ≠ RET_AVAILABLE_WITH_LINUX_ONLY →
        ∃ o, h'.out = h.out ++ o ∧ messagesOf o = [(s, getErrorCodeMessage r, x)]) := by
  obtain ⟨e, he, -, hvis⟩ := lookup_listed r hr
  by_cases hp : (e.visible && v) = true
  · obtain ⟨h', h1, h2, h3⟩ := printMessage_ok hf h hh e x s
    simp only [Bool.and_eq_true] at hp
    refine ⟨h', ?_, h2, ?_, ?_⟩
    · simp [Handler.throwMessage, he, Handler.throwFound, hp.1, hp.2, h1]
    · rintro (h4 | h4)
      · rw [hp.2] at h4; exact absurd h4 (by decide)
      · rw [hvis.2 h4] at hp; exact absurd hp.1 (by decide)
    · intro _ _
      simpa [getErrorCodeMessage, he] using h3
  · refine ⟨h, ?_, ⟨rfl, rfl, rfl, rfl⟩, fun _ => rfl, ?_⟩
    · simp only [Bool.not_eq_true] at hp
      simp [Handler.throwMessage, he, Handler.throwFound, hp]
    · intro hv hne
      exfalso
      apply hp
      have : e.visible = true := by
        by_contra h4
        exact hne (hvis.1 (by simpa using h4))
      simp [this, hv]

theorem throwErrorChecked_ok {fuel : Nat} (hf : 0 < fuel) (h : Handler) (hh : h.hasFile = true)
    (r : ReturnValue) (hr : r ≠ TERMINAL_LIST_ELEMENT) (x : Option String) (v : Bool) :
    ∃ h', Handler.throwErrorChecked (Handler.print fuel) h r x v = .ok (r, h') ∧ SameConfig h h' := by
  unfold Handler.throwErrorChecked
  split
  · obtain ⟨h', h1, h2, -⟩ := throwMessage_ok hf h hh r hr x v .ERROR
    exact ⟨h', h1, h2⟩
  · exact ⟨h, rfl, rfl, rfl, rfl, rfl⟩

/-! ### C49 -/

/-- C49, one call: an error/warning/info returns its code (illegal codes: the documented substitute) and
leaves the configuration unchanged, whatever the visibility settings and the indentation state. -/
theorem exec_ok {fuel : Nat} (hf : 0 < fuel) (h : Handler) (hh : h.hasFile = true) (c : MsgCall) :
    ∃ h', c.exec fuel h = .ok (c.expected, h') ∧ h'.hasFile = true := by
  cases c with
  | error r x v =>
    by_cases hp : 0 < r.code
    · have h3 : ¬ (r.code ≤ SUCCESSFUL_RETURN.code) := by rw [success_code]; omega
      obtain ⟨h', h1, h2⟩ := throwErrorChecked_ok hf h hh r (code_pos_ne hp.le) x v
      exact ⟨h', by simp [MsgCall.exec, MsgCall.expected, Handler.errorMsg, Handler.throwErrorWith, h3, h1, hp],
        h2.2.2.2.trans hh⟩
    · have h3 : r.code ≤ SUCCESSFUL_RETURN.code := by rw [success_code]; omega
      obtain ⟨h', h1, h2⟩ := throwErrorChecked_ok hf h hh RET_ERROR_UNDEFINED (by decide) none true
      exact ⟨h', by simp [MsgCall.exec, MsgCall.expected, Handler.errorMsg, Handler.throwErrorWith, h3, h1, hp],
        h2.2.2.2.trans hh⟩
  | warning r x v =>
    by_cases hp : 0 < r.code
    · have h3 : ¬ (r.code ≤ SUCCESSFUL_RETURN.code) := by rw [success_code]; omega
      cases hw : h.warningVis with
      | true =>
        obtain ⟨h', h1, h2, -⟩ := throwMessage_ok hf h hh r (code_pos_ne hp.le) x v .WARNING
        exact ⟨h', by simp [MsgCall.exec, MsgCall.expected, Handler.warningMsg, h3, h1, hp, hw], h2.2.2.2.trans hh⟩
      | false => exact ⟨h, by simp [MsgCall.exec, MsgCall.expected, Handler.warningMsg, h3, hp, hw], hh⟩
    · have h3 : r.code ≤ SUCCESSFUL_RETURN.code := by rw [success_code]; omega
      have h4 : ¬ (RET_WARNING_UNDEFINED.code ≤ SUCCESSFUL_RETURN.code) := by decide
      obtain ⟨h', h1, h2⟩ := throwErrorChecked_ok hf h hh RET_WARNING_UNDEFINED (by decide) none true
      exact ⟨h', by simp [MsgCall.exec, MsgCall.expected, Handler.warningMsg, Handler.errorMsg,
        Handler.throwErrorWith, h3, h1, hp, h4], h2.2.2.2.trans hh⟩
  | info r x v =>
    by_cases hp : 0 ≤ r.code
    · have h3 : ¬ (r.code < SUCCESSFUL_RETURN.code) := by rw [success_code]; omega
      cases hw : h.infoVis with
      | true =>
        obtain ⟨h', h1, h2, -⟩ := throwMessage_ok hf h hh r (code_pos_ne hp) x v .INFO
        exact ⟨h', by simp [MsgCall.exec, MsgCall.expected, Handler.infoMsg, h3, h1, hp, hw], h2.2.2.2.trans hh⟩
      | false => exact ⟨h, by simp [MsgCall.exec, MsgCall.expected, Handler.infoMsg, h3, hp, hw], hh⟩
    · have h3 : r.code < SUCCESSFUL_RETURN.code := by rw [success_code]; omega
      have h4 : ¬ (RET_INFO_UNDEFINED.code ≤ SUCCESSFUL_RETURN.code) := by decide
      obtain ⟨h', h1, h2⟩ := throwErrorChecked_ok hf h hh RET_INFO_UNDEFINED (by decide) none true
      exact ⟨h', by simp [MsgCall.exec, MsgCall.expected, Handler.infoMsg, Handler.errorMsg,
        Handler.throwErrorWith, h3, h1, hp, h4], h2.2.2.2.trans hh⟩
  | setErrorVis b => exact ⟨_, rfl, hh⟩
  | setWarningVis b => exact ⟨_, rfl, hh⟩
  | setInfoVis b => exact ⟨_, rfl, hh⟩
  | setErrorCount c =>
    refine ⟨_, rfl, ?_⟩
    unfold Handler.setErrorCount; split <;> exact hh
  | reset => exact ⟨_, rfl, rfl⟩

/-- C49: in every history of throws and visibility changes, from every handler state with an output file,
each throw returns exactly the expected code; the codes therefore do not depend on visibility settings or
on earlier messages. -/
theorem C49_codes_pass_through {fuel : Nat} (hf : 0 < fuel) (calls : List MsgCall) (h : Handler)
    (hh : h.hasFile = true) :
    ∃ h', execAll fuel h calls = .ok (calls.map MsgCall.expected, h') := by
  induction calls generalizing h with
  | nil => exact ⟨h, rfl⟩
  | cons c cs ih =>
    obtain ⟨h1, e1, hh1⟩ := exec_ok hf h hh c
    obtain ⟨h2, e2⟩ := ih h1 hh1
    exact ⟨h2, by simp [execAll, e1, e2]⟩

/-- C49, suppression: a hidden class of messages changes nothing at all (no output, no indentation). -/
theorem C49_hidden_is_silent {fuel : Nat} (h : Handler) (r : ReturnValue) (x : Option String) (v : Bool) :
    (h.errorVis = false → ∃ r', h.errorMsg fuel r x v = .ok (r', h)) ∧
    (h.warningVis = false → 0 < r.code → h.warningMsg fuel r x v = .ok (r, h)) ∧
    (h.infoVis = false → 0 ≤ r.code → h.infoMsg fuel r x v = .ok (r, h)) := by
  refine ⟨fun he => ?_, fun hw hr => ?_, fun hi hr => ?_⟩
  · by_cases h3 : r.code ≤ SUCCESSFUL_RETURN.code
    · exact ⟨_, by simp [Handler.errorMsg, Handler.throwErrorWith, h3, Handler.throwErrorChecked, he]; rfl⟩
    · exact ⟨_, by simp [Handler.errorMsg, Handler.throwErrorWith, h3, Handler.throwErrorChecked, he]; rfl⟩
  · have h3 : ¬ (r.code ≤ SUCCESSFUL_RETURN.code) := by rw [success_code]; omega
    simp [Handler.warningMsg, h3, hw]
  · have h3 : ¬ (r.code < SUCCESSFUL_RETURN.code) := by rw [success_code]; omega
    simp [Handler.infoMsg, h3, hi]

/-- C49, output: a visible message with a legal code prints exactly one message, the one of its code;
the only code that is never printed is `RET_AVAILABLE_WITH_LINUX_ONLY`. -/
theorem C49_visible_prints_once {fuel : Nat} (hf : 0 < fuel) (h : Handler) (hh : h.hasFile = true)
    (r : ReturnValue) (hr : 0 < r.code) (hne : r ≠ RET_AVAILABLE_WITH_LINUX_ONLY) (x : Option String) :
    (h.errorVis = true → ∃ h' o, h.errorMsg fuel r x true = .ok (r, h') ∧ h'.out = h.out ++ o ∧
      messagesOf o = [(.ERROR, getErrorCodeMessage r, x)]) ∧
    (h.warningVis = true → ∃ h' o, h.warningMsg fuel r x true = .ok (r, h') ∧ h'.out = h.out ++ o ∧
      messagesOf o = [(.WARNING, getErrorCodeMessage r, x)]) ∧
    (h.infoVis = true → ∃ h' o, h.infoMsg fuel r x true = .ok (r, h') ∧ h'.out = h.out ++ o ∧
      messagesOf o = [(.INFO, getErrorCodeMessage r, x)]) := by
  have h3 : ¬ (r.code ≤ SUCCESSFUL_RETURN.code) := by rw [success_code]; omega
  have h4 : ¬ (r.code < SUCCESSFUL_RETURN.code) := by rw [success_code]; omega
  have key := fun s => throwMessage_ok hf h hh r (code_pos_ne hr.le) x true s
  refine ⟨fun hv => ?_, fun hv => ?_, fun hv => ?_⟩
  · obtain ⟨h', h1, -, -, h2⟩ := key .ERROR
    obtain ⟨o, ho⟩ := h2 rfl hne
    exact ⟨h', o, by simp [Handler.errorMsg, Handler.throwErrorWith, Handler.throwErrorChecked, h3, hv, h1], ho⟩
  · obtain ⟨h', h1, -, -, h2⟩ := key .WARNING
    obtain ⟨o, ho⟩ := h2 rfl hne
    exact ⟨h', o, by simp [Handler.warningMsg, h3, hv, h1], ho⟩
  · obtain ⟨h', h1, -, -, h2⟩ := key .INFO
    obtain ⟨o, ho⟩ := h2 rfl hne
    exact ⟨h', o, by simp [Handler.infoMsg, h4, hv, h1], ho⟩

/-- C49: distinct codes are told apart by their texts being available: every code has its own row. -/
theorem C49_every_code_has_text (r : ReturnValue) (hr : r ≠ TERMINAL_LIST_ELEMENT) :
    ∃ e ∈ returnValueList, e.key = r ∧ getErrorCodeMessage r = e.data := by
  obtain ⟨e, he, hk, -⟩ := lookup_listed r hr
  exact ⟨e, mem_of_lookup he, hk, by simp [getErrorCodeMessage, he]⟩

/-- C45, printing: with `doPrintStatus` the matching info message is printed exactly once, the returned
value is the same, and the visibility of infos is restored. -/
theorem C45_print {fuel : Nat} (hf : 0 < fuel) (h : Handler) (hh : h.hasFile = true) (r : ReturnValue) :
    (∃ h', getSimpleStatus fuel h r false = .ok (simpleStatus r, h') ∧ h' = h) ∧
    ∃ h' o code, getSimpleStatus fuel h r true = .ok (simpleStatus r, h') ∧ SameConfig h h' ∧
      h'.out = h.out ++ o ∧ messagesOf o = [(.INFO, getErrorCodeMessage code, none)] ∧
      code = (if simpleStatus r = 0 then RET_SIMPLE_STATUS_P0
        else if simpleStatus r = 1 then RET_SIMPLE_STATUS_P1
        else if simpleStatus r = -2 then RET_SIMPLE_STATUS_M2
        else if simpleStatus r = -3 then RET_SIMPLE_STATUS_M3 else RET_SIMPLE_STATUS_M1) := by
  refine ⟨⟨h, rfl, rfl⟩, ?_⟩
  have hcode : simpleStatusCode (RET_SIMPLE_STATUS_P0.code - simpleStatus r) =
      (if simpleStatus r = 0 then RET_SIMPLE_STATUS_P0
        else if simpleStatus r = 1 then RET_SIMPLE_STATUS_P1
        else if simpleStatus r = -2 then RET_SIMPLE_STATUS_M2
        else if simpleStatus r = -3 then RET_SIMPLE_STATUS_M3 else RET_SIMPLE_STATUS_M1) := by
    cases r <;> decide
  have hpos : 0 ≤ (simpleStatusCode (RET_SIMPLE_STATUS_P0.code - simpleStatus r)).code := by
    cases r <;> decide
  have hne : simpleStatusCode (RET_SIMPLE_STATUS_P0.code - simpleStatus r) ≠
      RET_AVAILABLE_WITH_LINUX_ONLY := by
    cases r <;> decide
  have h4 : ¬ ((simpleStatusCode (RET_SIMPLE_STATUS_P0.code - simpleStatus r)).code <
      SUCCESSFUL_RETURN.code) := by rw [success_code]; omega
  obtain ⟨h', h1, h2, -, h3⟩ := throwMessage_ok hf
    { h with infoVis := true, errorCount := -1 } hh
    (simpleStatusCode (RET_SIMPLE_STATUS_P0.code - simpleStatus r)) (code_pos_ne hpos) none true .INFO
  obtain ⟨o, ho, hm⟩ := h3 rfl hne
  refine ⟨h'.setInfoVis h.infoVis, o, _, ?_, ?_, ho, hm, hcode⟩
  · simp [getSimpleStatus, Handler.setInfoVis, Handler.setErrorCount, Handler.infoMsg, h4, h1]
  · exact ⟨h2.1, h2.2.1, rfl, h2.2.2.2⟩

/-- Non-vacuity: the initial global handler; three nested errors, then an info. -/
def sampleHandler : Handler := ⟨true, true, true, true, 0, []⟩

example : execAll 1 sampleHandler
    [.error RET_STEPDIRECTION_DETERMINATION_FAILED none true, .setErrorVis false,
     .error SUCCESSFUL_RETURN none true, .info SUCCESSFUL_RETURN none true] =
    .ok ([some RET_STEPDIRECTION_DETERMINATION_FAILED, none, some RET_ERROR_UNDEFINED,
      some SUCCESSFUL_RETURN],
      ⟨false, true, true, true, 0,
        [.message .ERROR "Determination of step direction failed" none, .indent 0,
         .message .INFO "Successful return" none, .newline]⟩) := by
  rfl

/-! ### C59: no output file -/

/-- Full statement of C59: if the output file has been set to null, throwing still returns the code. -/
def C59_statement : Prop :=
  ∀ (h : Handler) (r : ReturnValue), h.hasFile = false → 0 < r.code →
    ∃ fuel h', h.errorMsg fuel r none true = .ok (r, h')

theorem print_diverges (fuel : Nat) (h : Handler) (hh : h.hasFile = false) (he : h.errorVis = true)
    (o : Output) : Handler.print fuel h o = .ub .diverge := by
  induction fuel generalizing h o with
  | zero => rfl
  | succ n ih =>
    have h3 : ¬ (RET_NO_GLOBAL_MESSAGE_OUTPUTFILE.code ≤ SUCCESSFUL_RETURN.code) := by decide
    obtain ⟨e, hl, -, hvis⟩ := lookup_listed RET_NO_GLOBAL_MESSAGE_OUTPUTFILE (by decide)
    have hv : e.visible = true := by
      by_contra h4
      exact absurd (hvis.1 (by simpa using h4)) (by decide)
    simp only [Handler.print, hh, Bool.false_eq_true, if_false, Handler.throwErrorWith, h3,
      Handler.throwErrorChecked, he, if_true, Handler.throwMessage, hl, Handler.throwFound, hv,
      Bool.and_self, Handler.printMessage]
    rcases lt_trichotomy h.errorCount 0 with hc | hc | hc
    · simp [hc, ih h hh he]
    · simp [hc, ih h hh he]
    · have h2 : ¬ (h.errorCount < 0) := by omega
      simp [h2, hc, ih h hh he]

/-- C59 is violated: with errors visible and no output file, throwing any printable error recurses for
ever, however much stack (`fuel`) there is. -/
theorem C59_no_output_file_diverges (fuel : Nat) (h : Handler) (hh : h.hasFile = false)
    (he : h.errorVis = true) (r : ReturnValue) (hr : 0 < r.code) (hne : r ≠ RET_AVAILABLE_WITH_LINUX_ONLY) :
    h.errorMsg fuel r none true = .ub .diverge := by
  have h3 : ¬ (r.code ≤ SUCCESSFUL_RETURN.code) := by rw [success_code]; omega
  obtain ⟨e, hl, -, hvis⟩ := lookup_listed r (code_pos_ne hr.le)
  have hv : e.visible = true := by
    by_contra h4
    exact absurd (hvis.1 (by simpa using h4)) hne
  have ih := print_diverges fuel h hh he
  simp only [Handler.errorMsg, Handler.throwErrorWith, h3, if_false,
      Handler.throwErrorChecked, he, if_true, Handler.throwMessage, hl, Handler.throwFound, hv,
      Bool.and_self, Handler.printMessage]
  rcases lt_trichotomy h.errorCount 0 with hc | hc | hc
  · simp [hc, ih]
  · simp [hc, ih]
  · have h2 : ¬ (h.errorCount < 0) := by omega
    simp [h2, hc, ih]

theorem C59_violated : ¬ C59_statement := by
  intro H
  obtain ⟨fuel, h', e⟩ := H (sampleHandler.setOutputFile false) RET_INIT_FAILED rfl (by decide)
  rw [C59_no_output_file_diverges fuel _ rfl rfl _ (by decide) (by decide)] at e
  exact absurd e (by simp)

/-- C59, what holds: without output file, throwing returns the code if errors are hidden or the message
is locally hidden. -/
theorem C59_no_output_file_partial (fuel : Nat) (h : Handler) (r : ReturnValue) (hr : 0 < r.code)
    (x : Option String) (v : Bool) (hq : h.errorVis = false ∨ v = false) :
    h.errorMsg fuel r x v = .ok (r, h) := by
  have h3 : ¬ (r.code ≤ SUCCESSFUL_RETURN.code) := by rw [success_code]; omega
  obtain ⟨e, hl, -, hvis⟩ := lookup_listed r (code_pos_ne hr.le)
  rcases hq with hq | hq
  · simp [Handler.errorMsg, Handler.throwErrorWith, h3, Handler.throwErrorChecked, hq]
  · cases he : h.errorVis <;>
      simp [Handler.errorMsg, Handler.throwErrorWith, h3, Handler.throwErrorChecked, hq, he,
        Handler.throwMessage, hl, Handler.throwFound]

end QpOASES.Props
