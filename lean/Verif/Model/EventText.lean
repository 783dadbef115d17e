import Verif.Model.Messages
import Verif.Model.Debuggable
/-
Model of what `exception_control_event` prints, and of its argument `exception_type`
(src/configparserenhanced/ExceptionControl.py:215-315). `Model/ExceptionControl` has the decision alone.
-/
namespace CPE.Notes
open CPE CPE.KW

/-- The argument `exception_type`: an exception class that can be called without arguments and with a message, with its
`__name__`; an instance of an exception; a class whose constructor raises when called without arguments; or anything
else. Simplification: a class whose constructor raises an instance of itself is left out. -/
inductive ExcArg where
  | cls (e : PyExc) (name : Str)
  | inst (e : PyExc)
  | broken (e : PyExc)
  | other
  deriving DecidableEq, Repr

/-- ExceptionControl.py:234-260 `_is_raisable`: `raise exception` is tried. A constructor that raises TypeError makes the
argument not raisable, other exceptions of it go through. -/
def isRaisable : ExcArg → Except PyExc Bool
  | .cls _ _ => .ok true
  | .inst _ => .ok true
  | .broken e => if e = .typeError then .ok false else .error e
  | .other => .ok false

/-- `text.replace("\n", rep)` (ExceptionControl.py:293, 301). -/
def replaceNewline (rep s : Str) : Str := s.flatMap fun c => if c = '\n' then rep else [c]

/-- The line of ExceptionControl.py:287 and 311. -/
def noticeBar : Str := py!"!! " ++ List.replicate 80 '='

/-- ExceptionControl.py:280-285: the compact form; `stack` is `traceback.format_stack()`, the last entry being this
method. Nothing but the first line of the caller is shown. -/
def compactText (key name : Str) (stack : List Str) : Except PyExc Str :=
  match stack.dropLast.getLast? with
  | none => .error .indexError
  | some frame => match splitLines frame with
    | [] => .error .indexError
    | l :: _ => .ok (py!"!! EXCEPTION SKIPPED (" ++ key ++ py!" : " ++ name ++ py!") @ " ++ strip l ++ py!"\n")

/-- ExceptionControl.py:292-294: the message, if there is one. -/
def messagePrints : Option Str → List Str
  | some m => [py!"!! Message    : " ++ replaceNewline py!"\n!!            : " m]
  | none => []

/-- ExceptionControl.py:287-311: the long form, as the arguments of `print`. -/
def fullPrints (key name : Str) (msg : Option Str) (req : Nat) (stack : List Str) : List Str :=
  [noticeBar, py!"!! EXCEPTION SKIPPED", py!"!! Event Type : " ++ key, py!"!! Exception  : " ++ name] ++
  messagePrints msg ++
  [py!"!!", py!"!! Call Stack:"] ++
  stack.dropLast.map (fun frame => py!"!! " ++ strip (replaceNewline py!"\n!! " (strip frame))) ++
  [py!"!!", py!"!! Increase `exception_control_level` to " ++ DbgState.decimal req ++ py!" to raise this exception.", noticeBar]

/-- `print(x)` for each of them. -/
def printed (xs : List Str) : Str := xs.flatMap fun x => x ++ py!"\n"

/-- ExceptionControl.py:275-313: an event that does not raise, at a level above 0. `except exception_type` with an
instance is a TypeError. -/
def skipEvent (key : Str) (ev : Event) (x : ExcArg) (msg : Option Str) (stack : List Str) (s : ECState) :
    (Out Unit × Str) × ECState :=
  match x with
  | .cls _ name =>
    let (silent, s) := s.getSilent
    if silent = false ∧ key ≠ py!"SILENT" then
      let (compact, s) := s.getCompact
      if compact = true then
        match compactText key name stack with
        | .ok t => ((.ok (), t), s)
        | .error e => ((.exc e, []), s)
      else ((.ok (), printed (fullPrints key name msg ev.levelReq stack)), s)
    else ((.ok (), []), s)
  | _ => ((.exc .typeError, []), s)

/-- ExceptionControl.py:215-315 `exception_control_event(event_type, exception_type, message)`, with what it prints. An
instance cannot be called with the message (TypeError). -/
def event (name : Str) (x : ExcArg) (msg : Option Str) (stack : List Str) (s : ECState) : (Out Unit × Str) × ECState :=
  let key := pyUpper name
  match isRaisable x with
  | .error e => ((.exc e, []), s)
  | .ok false => ((.exc .typeError, []), s)
  | .ok true =>
    match Event.ofName key with
    | none => ((.exc .keyError, []), s)
    | some ev =>
      let (level, s) := s.getLevel
      if level ≥ ev.levelReq then
        match x, msg with
        | .cls e _, _ => ((.exc e, []), s)
        | .inst e, none => ((.exc e, []), s)
        | _, _ => ((.exc .typeError, []), s)
      else if level > 0 then skipEvent key ev x msg stack s
      else ((.ok (), []), s)

end CPE.Notes
