import Verif.Model.EnhancedData
import Verif.Model.Debuggable
/-
Model of what src/configparserenhanced/ConfigParserEnhanced.py prints during a parse: the parser of `Verif/Model/Parser`
once more, with the calls of `debug_message` in their places. That nothing else is different is a theorem
(`Verif/Proofs/Console`).
-/
namespace CPE.Con

/-- What one call of `print` puts out: a message of the debug trace (with the level it asks for), or an event notice. -/
inductive Printed where
  | debug (level : Nat) (text : Str)
  | notice (n : Notice)
  deriving DecidableEq, Repr

/-- How Python shows what is not modelled: `repr` of a str, `str` of `data_shared`, and `str` of `data_internal` when
these sections are being processed (in the order they were entered, the last one first). Simplification: nothing else
influences the order in which a set is shown. -/
structure Printer (δ : Type) where
  repr : Str → Str
  shared : δ → Str
  internal : List Str → Str

/-- The state of the object and what has been printed. -/
abbrev World (δ ω : Type) := CPE.World δ ω × List Printed

section
variable {δ ω : Type} (E : Env δ ω) (P : Printer δ)

/-- Code that prints nothing but event notices. -/
def lift {α : Type} (m : M (CPE.World δ ω) α) : M (World δ ω) α := fun w =>
  ((m w.1).1, (m w.1).2, w.2 ++ ((m w.1).2.out.drop w.1.out.length).map .notice)

/-- `self.debug_message(k, text)` (Debuggable.py:95-129). -/
def say (k : Nat) (text : Str) : M (World δ ω) Unit := fun w =>
  match (DbgState.debugMessage k text py!"\n" true { level := some E.debug }).1 with
  | some t => (.ok (), w.1, w.2 ++ [.debug k t])
  | none => (.ok (), w)

/-- `f"{v}"` for a str or None. -/
def showValue (v : Option Str) : Str := v.getD py!"None"

/-- `repr(v)` for a str or None. -/
def reprValue (v : Option Str) : Str :=
  match v with
  | none => py!"None"
  | some s => P.repr s

/-- `f"{raw_option}"` -/
def showRaw (c : HCall) : Str := py!"(" ++ reprValue P c.rawKey ++ py!", " ++ reprValue P c.rawValue ++ py!")"

/-- `f"{params}"` -/
def showParams (l : List Str) : Str := py!"[" ++ joinStr py!", " (l.map P.repr) ++ py!"]"

/-- ConfigParserEnhanced.py:726-755 `enter_handler`. -/
def enterHandler (c : HCall) : M (World δ ω) Unit := do
  say E 1 (py!"Enter handler    : " ++ c.handlerName)
  say E 1 (py!" -> raw_option   : " ++ showRaw P c)
  say E 2 (py!" -> op           : " ++ c.op)
  say E 2 (py!" -> params       : " ++ showParams P c.params)
  say E 2 (py!" -> value        : " ++ showValue c.value)
  let w ← M.read
  say E 3 (py!" -> data_shared  : " ++ P.shared w.1.shared)
  say E 4 (py!" -> data_internal: " ++ P.internal w.1.processed)
  lift (logAdd E (.handlerEntry c.handlerName c.rawKey c.rawValue))

/-- ConfigParserEnhanced.py:757-783 `exit_handler`. -/
def exitHandler (c : HCall) : M (World δ ω) Unit := do
  say E 1 (py!"Exit handler     : " ++ c.handlerName)
  say E 1 (py!" -> raw_option   : " ++ showRaw P c)
  let w ← M.read
  say E 3 (py!" -> data_shared  : " ++ P.shared w.1.shared)
  say E 4 (py!" -> data_internal: " ++ P.internal w.1.processed)
  lift (logAdd E (.handlerExit c.handlerName c.rawKey c.rawValue))

/-- ConfigParserEnhanced.py:1209-1243 `_check_handler_rval`: the type is checked before the message.
Simplification: a handler that returns True or False is taken to return 1 or 0, also in the text. -/
def checkRval (name : Str) (r : Ret) : M (World δ ω) Unit :=
  match r with
  | .notInt => lift (CPE.checkRval E .notInt)
  | .int i => do
    say E 2 (py!"_check_handler_rval(" ++ name ++ py!", " ++ (toString i).toList ++ py!")")
    lift (CPE.checkRval E (.int i))

/-- ConfigParserEnhanced.py:692-720 the `operation_handler` wrapper. -/
def operationHandler (c : HCall) (body : M (World δ ω) Ret) : M (World δ ω) Unit := do
  enterHandler E P c
  let r ← body
  exitHandler E P c
  checkRval E c.handlerName r

/-- Call a handler of the subclass, decorated or not (it prints nothing itself). -/
def callHandler (h : Handler δ ω) (c : HCall) : M (World δ ω) Unit :=
  if h.decorated then operationHandler E P c (lift (runHandlerBody h c))
  else do
    let _ ← lift (runHandlerBody h c)
    pure ()

/-- ConfigParserEnhanced.py:1245-1273 `_launch_generic_option_handler`. `hp` are the fields `op` and `params` of the
`handler_parameters` of the section: those of the last option that had an operation (984-988). -/
def launchGeneric (hp : Str × List Str) (root sec k : Str) (v : Option Str) : M (World δ ω) Unit := do
  lift (dataSet root k v)
  operationHandler E P
    { sectionName := sec, sectionRoot := root, rawKey := some k, rawValue := v, op := hp.1, params := hp.2, value := v,
      handlerName := py!"_generic_option_handler" }
    (pure (.int 0))

/-- ConfigParserEnhanced.py:1190-1207 `_locate_class_method`: the message for a method that is not there. -/
def sayMissing (there : Bool) (name : Str) : M (World δ ω) Unit :=
  if there then pure () else say E 5 (py!" -> Class method `" ++ name ++ py!"` was not found.")

/-- ConfigParserEnhanced.py:1126-1188 `_locate_handler_method`. -/
def locateHandler (operation : Str) : M (World δ ω) (Option (Str × Impl δ ω)) :=
  let op := opOfToken operation
  let pub := publicMethod E op
  let priv := E.priv op
  do
    sayMissing E pub.isSome (py!"handler_" ++ op)
    sayMissing E priv.isSome (py!"_handler_" ++ op)
    let r ← lift (CPE.locateHandler E operation)
    match pub, priv with
    | some _, _ => say E 4 (py!" -> Using _public_ handler : `handler_" ++ op ++ py!"`")
    | none, some _ => say E 4 (py!" -> Using _private_ handler: `_handler_" ++ op ++ py!"`")
    | none, none => say E 4 (py!" -> No handler found for operation `" ++ op ++ py!"`")
    pure r

/-- ConfigParserEnhanced.py:1279-1316 `_handler_use`. -/
def useBody (rec : Str → M (World δ ω) Unit) (c : HCall) : M (World δ ω) Ret := do
  match c.params with
  | [] => M.raise .indexError
  | t :: _ =>
    let w ← M.read
    if t ∈ w.1.processed then do
      lift (logAdd E (.cycleDetected c.sectionName c.op))
      lift (logAdd E (.handlerExit c.handlerName c.rawKey c.rawValue))
      lift (ecEvent E .warning .valueError)
    else rec t
    pure (.int 0)

/-- Call a located method. -/
def callImpl (rec : Str → M (World δ ω) Unit) (i : Impl δ ω) (c : HCall) : M (World δ ω) Unit :=
  match i with
  | .use => operationHandler E P c (useBody E rec c)
  | .user h => callHandler E P h c

/-- ConfigParserEnhanced.py:954-1003: one turn of the loop over the options of a section. The fields `op` and `params` of
`handler_parameters` are kept from turn to turn. -/
def processOption (rec : Str → M (World δ ω) Unit) (root sec : Str) (hp : Str × List Str) (key : Str) :
    M (World δ ω) (Str × List Str) := do
  let v ← M.ofExcept (E.cfg.value sec key)
  let k := strip key
  let v := v.map fun s => stripQuotes (strip s)
  say E 2 py!"==>"
  say E 2 (py!"==> Entry        : `" ++ k ++ py!"` : `" ++ showValue v ++ py!"`")
  say E 2 py!"==>"
  lift (logAdd E (.keyValue k v))
  let toks ← M.ofExcept (tokenizeOptionKey k)
  match toks with
  | [] => M.raise .indexError
  | t :: params =>
    if matchesOp t = false then do
      launchGeneric E P hp root sec k v
      pure hp
    else do
      let op := opOfToken t
      lift (logAdd E (.operation op params))
      say E 2 (py!" -> op           : " ++ op)
      say E 2 (py!" -> params       : " ++ showParams P params)
      say E 2 (py!" -> value        : " ++ showValue v)
      let h ← locateHandler E op
      match h with
      | none => launchGeneric E P (op, params) root sec k v
      | some (name, impl) =>
        callImpl E P rec impl
          { sectionName := sec, sectionRoot := root, rawKey := some k, rawValue := v, op := op,
            params := params, value := v, handlerName := name }
      pure (op, params)

/-- ConfigParserEnhanced.py:954: the loop over the options. -/
def processOptions (rec : Str → M (World δ ω) Unit) (root sec : Str) : Str × List Str → List Str → M (World δ ω) Unit
  | _, [] => pure ()
  | hp, k :: ks => do
    let hp ← processOption E P rec root sec hp k
    processOptions rec root sec hp ks

/-- ConfigParserEnhanced.py:930-1024: a section, after the initialization phase. The `handler_parameters` of the section
are new (1071-1095): no operation, no parameters (HandlerParameters.py:87-88). -/
def parseMain (rec : Str → M (World δ ω) Unit) (root sec : Str) (fin : Bool) :
    M (World δ ω) Unit := do
  say E 1 (py!">>> Enter section    : `" ++ sec ++ py!"`")
  lift (logAdd E (.sectionEntry sec))
  match E.cfg.optionNames sec with
  | none => M.raise .keyError
  | some names =>
    lift (addSection sec)
    lift (M.modify fun w => { w with processed := setAdd w.processed sec })
    processOptions E P rec root sec ([], []) names
    if fin && sec = root then
      callHandler E P E.hookFinal
        { sectionName := sec, sectionRoot := root, handlerName := py!"handler_finalize" }
    let w ← M.read
    if sec ∈ w.1.processed then
      lift (M.modify fun w => { w with processed := setDel w.processed sec })
      lift (logAdd E (.sectionExit sec))
      say E 1 (py!"Exit section: `" ++ sec ++ py!"`")
    else M.raise .keyError

/-- ConfigParserEnhanced.py:869-1024 `_parse_section_r` once `handler_parameters` exist. -/
def parseR : Nat → Str → Str → Bool → Bool → M (World δ ω) Unit
  | 0, _, _, _, _ => fun w => (.diverge, w)
  | n + 1, root, sec, init, fin => do
    if init && sec = root then
      callHandler E P E.hookInit
        { sectionName := sec, sectionRoot := root, handlerName := py!"handler_initialize" }
      if E.cfg.hasSection E.defaultName then
        parseR n root E.defaultName false false
    parseMain E P (fun t => parseR n root t true false) root sec fin

/-- ConfigParserEnhanced.py:892-907, 1071-1095: the start of `_parse_section_r(section)`. -/
def parseRoot (fuel : Nat) (sec : Str) (init fin : Bool) : M (World δ ω) δ := do
  lift (M.modify fun w => { w with processed := [], shared := E.emptyShared, log := [],
                                   checked := setAdd w.checked sec })
  parseR E P fuel sec sec init fin
  let w ← M.read
  pure w.1.shared

/-- The line of dashes around START and FINISH. -/
def dashes : Str := py!"[" ++ List.replicate 58 '-' ++ py!"]"

/-- ConfigParserEnhanced.py:669-671, 683-685. -/
def sayBanner (s word : Str) : M (World δ ω) Unit := do
  say E 1 dashes
  say E 1 (py!"  Parse section `" ++ s ++ py!"` " ++ word)
  say E 1 dashes

/-- ConfigParserEnhanced.py:653-686 `parse_section`; `parse_section_last_result` apart. -/
def parseSection (fuel : Nat) (s : Str) (init fin : Bool) : M (World δ ω) δ := do
  lift (M.modify fun w => { w with log := [] })
  sayBanner E s py!"START"
  if s = [] then M.raise .valueError
  else do
    let r ← parseRoot E P fuel s init fin
    sayBanner E s py!"FINISH"
    pure r

end
end CPE.Con
