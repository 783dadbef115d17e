import Verif.Base
/-
Model of src/configparserenhanced/ExceptionControl.py
-/
namespace CPE

/-- The six event classes (keys of the map at ExceptionControl.py:140). -/
inductive Event where
  | silent | warning | minor | serious | critical | catastrophic
  deriving DecidableEq, Repr

/-- ExceptionControl.py:130-141 `_exception_control_map_event_to_level_req`. -/
def Event.levelReq : Event → Nat
  | .silent => 5
  | .warning => 5
  | .minor => 4
  | .serious => 3
  | .critical => 2
  | .catastrophic => 0

/-- The characters outside ASCII whose `upper()` is ASCII, from the tables of Unicode that Python uses. -/
def foreignUpper : List (Char × Str) :=
  [('ß', py!"SS"), ('ı', py!"I"), ('ſ', py!"S"), ('ﬀ', py!"FF"), ('ﬁ', py!"FI"), ('ﬂ', py!"FL"), ('ﬃ', py!"FFI"), ('ﬄ', py!"FFL"),
   ('ﬅ', py!"ST"), ('ﬆ', py!"ST")]

/-- `str.upper()` (ExceptionControl.py:262) of one character. Simplification: a character whose upper case is not ASCII is
left as it is. Such a character is in no event name, in either case. -/
def upperChar (c : Char) : Str :=
  if 97 ≤ c.toNat ∧ c.toNat ≤ 122 then [Char.ofNat (c.toNat - 32)]
  else (Dict.get? foreignUpper c).getD [c]

/-- `str.upper()`. ExceptionControl.py:262. -/
def pyUpper (s : Str) : Str := s.flatMap upperChar

/-- The dictionary look-up `map[event_type]` at ExceptionControl.py:140, 267; `none` is KeyError. -/
def Event.ofName (s : Str) : Option Event :=
  if s = py!"SILENT" then some .silent
  else if s = py!"WARNING" then some .warning
  else if s = py!"MINOR" then some .minor
  else if s = py!"SERIOUS" then some .serious
  else if s = py!"CRITICAL" then some .critical
  else if s = py!"CATASTROPHIC" then some .catastrophic
  else none

/-- A printed "EXCEPTION SKIPPED" notice (ExceptionControl.py:280-311): which event, which
exception, and whether in the compact form. The text and the call stack are not modelled. -/
structure Notice where
  event : Event
  exc : PyExc
  compact : Bool
  deriving DecidableEq, Repr

/-- The instance attributes of ExceptionControl; `none` means the attribute does not exist yet. -/
structure ECState where
  level : Option Nat := none        -- _exception_control_level
  silent : Option Bool := none      -- _exception_control_silent_warnings
  compact : Option Bool := none     -- _exception_control_compact_warnings
  deriving DecidableEq, Repr

/-- What a client may assign to a property: an int, a bool, a string that `int()` accepts with the
given value, or an object that `int()` rejects. -/
inductive PyArg where
  | int (i : Int)
  | bool (b : Bool)
  | numeric (i : Int)      -- e.g. "3" or 3.7: not an int, but int(x) succeeds with value i
  | other (e : PyExc)      -- int(x) raises e
  deriving DecidableEq, Repr

/-- `int(x)` -/
def PyArg.toInt : PyArg → Except PyExc Int
  | .int i => .ok i
  | .bool b => .ok (if b then 1 else 0)
  | .numeric i => .ok i
  | .other e => .error e

namespace ECState

/-- ExceptionControl.py:189-205, getter with default 4. -/
def getLevel (s : ECState) : Nat × ECState :=
  match s.level with
  | some n => (n, s)
  | none => (4, { s with level := some 4 })

/-- ExceptionControl.py:207-213, setter: `int`, then clamp to 0..5. -/
def setLevel (v : PyArg) : M ECState Unit := fun s =>
  match v.toInt with
  | .error e => (.exc e, s)
  | .ok i =>
    let i := max 0 i
    let i := min 5 i
    (.ok (), { s with level := some i.toNat })

/-- ExceptionControl.py:143-158 getter. -/
def getSilent (s : ECState) : Bool × ECState :=
  match s.silent with
  | some b => (b, s)
  | none => (false, { s with silent := some false })

/-- ExceptionControl.py:160-165 setter. -/
def setSilent (v : PyArg) : M ECState Unit := fun s =>
  match v with
  | .bool b => (.ok (), { s with silent := some b })
  | _ => (.exc .typeError, s)

/-- ExceptionControl.py:167-180 getter. -/
def getCompact (s : ECState) : Bool × ECState :=
  match s.compact with
  | some b => (b, s)
  | none => (false, { s with compact := some false })

/-- ExceptionControl.py:182-187 setter. -/
def setCompact (v : PyArg) : M ECState Unit := fun s =>
  match v with
  | .bool b => (.ok (), { s with compact := some b })
  | _ => (.exc .typeError, s)

end ECState

/-- The `exception_type` argument: something raisable, or not (ExceptionControl.py:234-260). -/
inductive Raisable where
  | exc (e : PyExc)
  | notRaisable
  deriving DecidableEq, Repr

/-- ExceptionControl.py:267-315, after the event name has been resolved: raise, print, or return.
`print` is modelled by the list of notices returned. -/
def fireEvent (level : Nat) (silent compact : Bool) (ev : Event) (e : PyExc) :
    Out Unit × List Notice :=
  if level ≥ ev.levelReq then (.exc e, [])
  else if level > 0 then
    if !silent && ev ≠ .silent then (.ok (), [⟨ev, e, compact⟩]) else (.ok (), [])
  else (.ok (), [])

/-- ExceptionControl.py:215-315 `exception_control_event`. -/
def exceptionControlEvent (eventType : Str) (ex : Raisable) (s : ECState) :
    (Out Unit × List Notice) × ECState :=
  let name := pyUpper eventType
  match ex with
  | .notRaisable => ((.exc .typeError, []), s)
  | .exc e =>
    match Event.ofName name with
    | none => ((.exc .keyError, []), s)
    | some ev =>
      let (level, s) := s.getLevel
      if level ≥ ev.levelReq then ((.exc e, []), s)
      else if level > 0 then
        let (silent, s) := s.getSilent
        if !silent && ev ≠ .silent then
          let (compact, s) := s.getCompact
          ((.ok (), [⟨ev, e, compact⟩]), s)
        else ((.ok (), []), s)
      else ((.ok (), []), s)

/-- The operations a client can perform on the ExceptionControl properties. -/
inductive ECOp where
  | getLevel | getSilent | getCompact
  | setLevel (v : PyArg) | setSilent (v : PyArg) | setCompact (v : PyArg)
  | event (name : Str) (ex : Raisable)
  deriving DecidableEq, Repr

/-- One operation (ExceptionControl.py:143-315); only the resulting object state is kept. -/
def ECOp.step (s : ECState) : ECOp → ECState
  | .getLevel => s.getLevel.2
  | .getSilent => s.getSilent.2
  | .getCompact => s.getCompact.2
  | .setLevel v => (ECState.setLevel v s).2
  | .setSilent v => (ECState.setSilent v s).2
  | .setCompact v => (ECState.setCompact v s).2
  | .event n ex => (exceptionControlEvent n ex s).2

/-- A history of operations. -/
def ECOp.run (s : ECState) (ops : List ECOp) : ECState := ops.foldl ECOp.step s

end CPE
