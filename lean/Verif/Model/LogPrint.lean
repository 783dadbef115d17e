import Verif.Model.Debuggable
import Verif.Model.Parser
/-
Model of the debug log as a list of dicts, and of the function that prints it
(src/configparserenhanced/ConfigParserEnhanced.py:1340-1413). `Verif.Model.Parser` has what a parse logs.
-/
namespace CPE.LogPrint
open CPE

/-- A value in an entry of the log: a str, or some other object. -/
inductive Val (β : Type) where
  | text (s : Str)
  | other (v : β)
  deriving DecidableEq, Repr

/-- An entry of the log. Simplification: a dict that is logged is not changed afterwards (the parser logs a new dict each
time, ConfigParserEnhanced.py:748-754, 776-782, 931, 974, 992, 1021, 1309-1310). -/
abbrev Entry (β : Type) := Dict Str (Val β)

/-- The attributes `_debug_level` and `_loginfo` (none: there is no such attribute), and what has been printed. -/
structure State (β : Type) where
  debug : Nat := 0
  log : Option (List (Entry β)) := none
  out : List Str := []
  deriving DecidableEq, Repr

section
variable {β : Type}

/-- ConfigParserEnhanced.py:1348-1374 `_loginfo_add`; `none` is an entry that is no dict. -/
def add (typeinfo : Str) (entry : Option (Entry β)) : M (State β) Unit := do
  M.modify fun s => { s with log := some (s.log.getD []) }
  let s ← M.read
  if s.debug > 0 then
    match entry with
    | none => M.raise .typeError
    | some e => M.modify fun s => { s with log := some (s.log.getD [] ++ [Dict.set e py!"type" (.text typeinfo)]) }
  else pure ()

/-- `self._reset_lazy_attr("_loginfo")` (ConfigParserEnhanced.py:1337-1346), as at the beginning of a parse (667) and
when the files change (206, 1331). -/
def reset : M (State β) Unit := M.modify fun s => { s with log := none }

/-- `self.debug_message(1, text)` (Debuggable.py:95-129). -/
def say (text : Str) : M (State β) Unit := M.modify fun s =>
  match (DbgState.debugMessage 1 text py!"\n" true { level := some s.debug }).1 with
  | some t => { s with out := s.out ++ [t] }
  | none => s

/-- `self._loginfo`. -/
def theLog : M (State β) (List (Entry β)) := do
  let s ← M.read
  match s.log with
  | none => M.raise .attributeError
  | some es => pure es

/-- `s.ljust(n)` -/
def ljust (n : Nat) (s : Str) : Str := s ++ List.replicate (n - s.length) ' '

/-- ConfigParserEnhanced.py:1388-1393: `len_max_key`. The length of the type is taken too, but not used; an entry
without type is a KeyError. Simplification: what is no str has no length. -/
def measure : List (Entry β) → Nat → Except PyExc Nat
  | [], m => .ok m
  | e :: es, m =>
    match Dict.get? e py!"type" with
    | none => .error .keyError
    | some (.other _) => .error .typeError
    | some (.text _) => measure es ((Dict.keys e).foldl (fun m k => max m k.length) m)

/-- ConfigParserEnhanced.py:1395 -/
def specialKeys : List Str := [py!"type", py!"name"]

/-- How Python shows objects: `str` of a value that is no str, and `str` of the whole list. -/
structure Shower (β : Type) where
  value : β → Str
  whole : List (Entry β) → Str

variable (P : Shower β)

/-- `"{}".format(v)` -/
def Shower.str : Val β → Str
  | .text s => s
  | .other v => P.value v

/-- ConfigParserEnhanced.py:1397-1409: one entry. -/
def printEntry (w : Nat) (e : Entry β) : M (State β) Unit := do
  M.forEach specialKeys fun k =>
    match Dict.get? e k with
    | none => pure ()
    | some v => say ((if k ≠ py!"type" then py!"--> " else py!"    ") ++ (ljust w k ++ py!" : " ++ P.str v ++ py!" "))
  M.forEach e fun p =>
    if p.1 ∈ specialKeys then pure () else say (py!"--> " ++ ljust w p.1 ++ py!" : " ++ P.str p.2)
  say []

/-- ConfigParserEnhanced.py:1376-1413 `_loginfo_print`. -/
def print (pretty : Bool) : M (State β) Unit :=
  if pretty = true then do
    say py!"Loginfo:"
    let es ← theLog
    let w ← M.ofExcept (measure es 0)
    M.forEach es (printEntry P w)
  else do
    let es ← theLog
    M.modify fun s => { s with out := s.out ++ [P.whole es ++ py!"\n"] }

/-- What a client can do about the log: log something, forget the log (a new parse, other files), set the debug level,
print the log. -/
inductive Op (β : Type) where
  | add (typeinfo : Str) (entry : Option (Entry β))
  | reset
  | level (d : Nat)
  | print (pretty : Bool)

/-- One operation. -/
def Op.exec : Op β → M (State β) Unit
  | .add t e => LogPrint.add t e
  | .reset => LogPrint.reset
  | .level d => M.modify fun s => { s with debug := d }      -- Debuggable.py:90-93
  | .print b => LogPrint.print P b

/-- A history of operations; exceptions are caught by the client. -/
def run (ops : List (Op β)) (s : State β) : State β := ops.foldl (fun s op => (op.exec P s).2) s

end

/-- The objects in the log of a parse that are no str: None, the pair `raw_option`, the list of parameters, and the
`HandlerParameters` object of the entry with this number. -/
inductive Logged where
  | none
  | pair (k v : Option Str)
  | strs (l : List Str)
  | params (i : Nat)
  deriving DecidableEq, Repr

/-- A str or None. -/
def optional : Option Str → Val Logged
  | .none => .other .none
  | some s => .text s

/-- The arguments of `_loginfo_add` for an entry of the log of a parse (ConfigParserEnhanced.py:748-754, 776-782, 931,
974, 992, 1021, 1309). -/
def callOf (i : Nat) : LogEntry → Op Logged
  | .sectionEntry s => .add py!"section-entry" (some [(py!"name", .text s)])
  | .sectionExit s => .add py!"section-exit" (some [(py!"name", .text s)])
  | .keyValue k v => .add py!"section-key-value" (some [(py!"key", .text k), (py!"value", optional v)])
  | .operation op ps => .add py!"section-operation" (some [(py!"op", .text op), (py!"params", .other (.strs ps))])
  | .handlerEntry n k v =>
    .add py!"handler-entry" (some [(py!"name", .text n), (py!"entry", .other (.pair k v)), (py!"parameters", .other (.params i))])
  | .handlerExit n k v =>
    .add py!"handler-exit" (some [(py!"name", .text n), (py!"entry", .other (.pair k v)), (py!"parameters", .other (.params i))])
  | .cycleDetected a b => .add py!"cycle-detected" (some [(py!"sec-src", .text a), (py!"sec-dst", .text b)])

/-- The calls of `_loginfo_add` in a parse. The exit of the handler that `_handler_use` logs after a cycle has no
parameters (ConfigParserEnhanced.py:1310). -/
def callsOf (i : Nat) : List LogEntry → List (Op Logged)
  | .cycleDetected a b :: .handlerExit n k v :: l =>
    callOf i (.cycleDetected a b) :: .add py!"handler-exit" (some [(py!"name", .text n), (py!"entry", .other (.pair k v))]) ::
      callsOf (i + 2) l
  | e :: l => callOf i e :: callsOf (i + 1) l
  | [] => []

end CPE.LogPrint
