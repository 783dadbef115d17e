import Verif.Model.ExceptionControl
/-
Model of src/configparserenhanced/Debuggable.py
-/
namespace CPE

/-- Instance attribute `_debug_level` (none: not created yet). -/
structure DbgState where
  level : Option Nat := none
  deriving DecidableEq, Repr

namespace DbgState

/-- Debuggable.py:73-88, getter with default 0. -/
def getLevel (s : DbgState) : Nat × DbgState :=
  match s.level with
  | some n => (n, s)
  | none => (0, { s with level := some 0 })

/-- Debuggable.py:90-93, setter `max(int(value), 0)`. -/
def setLevel (v : PyArg) : M DbgState Unit := fun s =>
  match v.toInt with
  | .error e => (.exc e, s)
  | .ok i => (.ok (), { s with level := some (max i 0).toNat })

/-- Decimal digits of a natural number (Python `f"{n}"`). -/
def decimal (n : Nat) : Str := (toString n).toList

/-- Debuggable.py:95-129 `debug_message`: the text printed, `none` when nothing is printed.
`n` is the (int) level of the message; negative levels are covered. -/
def debugMessage (n : Int) (msg : Str) (ending : Str) (usePrefix : Bool) (s : DbgState) :
    Option Str × DbgState :=
  let (level, s) := s.getLevel
  if (level : Int) ≥ n then
    if n > 0 then
      let pre := if usePrefix then py!"[D-" ++ decimal n.toNat ++ py!"] " else []
      (some (pre ++ msg ++ ending), s)
    else (some (msg ++ ending), s)
  else (none, s)

end DbgState

/-- Client operations on a Debuggable object. -/
inductive DbgOp where
  | get
  | set (v : PyArg)
  | message (n : Int) (msg : Str) (ending : Str) (usePrefix : Bool)
  deriving DecidableEq, Repr

/-- One operation; only the object state is kept. -/
def DbgOp.step (s : DbgState) : DbgOp → DbgState
  | .get => s.getLevel.2
  | .set v => (DbgState.setLevel v s).2
  | .message n m e p => (s.debugMessage n m e p).2

def DbgOp.run (s : DbgState) (ops : List DbgOp) : DbgState := ops.foldl DbgOp.step s

end CPE
