import Verif.Model.Message

/-!
Vocabulary for stating the properties of the message handler.
-/
namespace QpOASES
open ReturnValue

/-- A call to the message handler. -/
inductive MsgCall where
  | error (r : ReturnValue) (extra : Option String) (locVis : Bool)
  | warning (r : ReturnValue) (extra : Option String) (locVis : Bool)
  | info (r : ReturnValue) (extra : Option String) (locVis : Bool)
  | setErrorVis (b : Bool)
  | setWarningVis (b : Bool)
  | setInfoVis (b : Bool)
  | setErrorCount (c : Int)
  | reset

/-- Execute one call; calls that throw deliver the code they return. -/
def MsgCall.exec (fuel : Nat) (h : Handler) : MsgCall → Res (Option ReturnValue × Handler)
  | .error r x v => (h.errorMsg fuel r x v) >>= fun p => .ok (some p.1, p.2)
  | .warning r x v => (h.warningMsg fuel r x v) >>= fun p => .ok (some p.1, p.2)
  | .info r x v => (h.infoMsg fuel r x v) >>= fun p => .ok (some p.1, p.2)
  | .setErrorVis b => .ok (none, h.setErrorVis b)
  | .setWarningVis b => .ok (none, h.setWarningVis b)
  | .setInfoVis b => .ok (none, h.setInfoVis b)
  | .setErrorCount c => .ok (none, (h.setErrorCount c).2)
  | .reset => .ok (none, h.reset)

/-- Execute a history of calls, collecting the returned codes. -/
def execAll (fuel : Nat) (h : Handler) : List MsgCall → Res (List (Option ReturnValue) × Handler)
  | [] => .ok ([], h)
  | c :: cs => do
    let (r, h) ← c.exec fuel h
    let (rs, h) ← execAll fuel h cs
    pure (r :: rs, h)

/-- Number of a code: errors and warnings are the positive codes, infos may also be
`SUCCESSFUL_RETURN` (0). -/
def MsgCall.expected : MsgCall → Option ReturnValue
  | .error r _ _ => some (if 0 < r.code then r else RET_ERROR_UNDEFINED)
  | .warning r _ _ => some (if 0 < r.code then r else RET_WARNING_UNDEFINED)
  | .info r _ _ => some (if 0 ≤ r.code then r else RET_INFO_UNDEFINED)
  | _ => none

/-- The messages (not the line decoration) in a piece of output. -/
def messagesOf (l : List Output) : List (Severity × String × Option String) :=
  l.filterMap fun
    | .message s t x => some (s, t, x)
    | _ => none

end QpOASES
