import Verif.Model.ExceptionControl
import Verif.Model.Shlex
import Verif.Model.Config
/-
Model of the recursive section parser of src/configparserenhanced/ConfigParserEnhanced.py
(`_parse_section_r` and what it calls).
-/
namespace CPE

/-- What a handler receives: `section_name` and the fields of `handler_parameters`
(HandlerParameters.py:82-92) other than the shared state. -/
structure HCall where
  sectionName : Str
  sectionRoot : Str
  rawKey : Option Str := none           -- raw_option[0]
  rawValue : Option Str := none         -- raw_option[1]
  op : Str := []
  params : List Str := []
  value : Option Str := some []
  handlerName : Str := []
  deriving DecidableEq, Repr

/-- What a handler may return. -/
inductive Ret where
  | int (i : Int)
  | notInt
  deriving DecidableEq, Repr

/-- A handler written by a subclass: an arbitrary function of its parameters, of `data_shared` (`δ`) and
of the subclass' own attributes (`ω`), which may raise (also after mutating). `decorated` tells whether
it carries `@operation_handler`. Not modelled: handlers that edit `data_internal`, that call the
parser, or that change the exception-control level during a parse. -/
structure Handler (δ ω : Type) where
  decorated : Bool
  run : HCall → δ → ω → Except PyExc Ret × δ × ω

/-- A method found under `handler_<op>` or `_handler_<op>`: the built-in `_handler_use`
(ConfigParserEnhanced.py:1279) or a method of the subclass. -/
inductive Impl (δ ω : Type) where
  | use
  | user (h : Handler δ ω)

/-- Entries of `_loginfo` (ConfigParserEnhanced.py:1348-1374). -/
inductive LogEntry where
  | sectionEntry (name : Str)
  | sectionExit (name : Str)
  | keyValue (k : Str) (v : Option Str)
  | operation (op : Str) (params : List Str)
  | handlerEntry (name : Str) (rawKey : Option Str) (rawValue : Option Str)
  | handlerExit (name : Str) (rawKey : Option Str) (rawValue : Option Str)
  | cycleDetected (src dst : Str)
  deriving DecidableEq, Repr

/-- The option data of one section: `ConfigParserEnhancedData.data[section]`. -/
abbrev Options := Dict Str (Option Str)

/-- The state a parse can change and a client can see (log apart). -/
structure Core (δ ω : Type) where
  data : Dict Str Options          -- configparserenhanceddata.data
  checked : List Str               -- configparserenhanceddata._sections_checked
  shared : δ                       -- handler_parameters.data_shared
  self : ω                         -- attributes of the subclass
  out : List Notice                -- printed event notices, oldest first

/-- The whole state: `data_internal['processed_sections']` and `_loginfo` added. -/
structure World (δ ω : Type) extends Core δ ω where
  processed : List Str
  log : List LogEntry

/-- What is fixed during a parse: the loaded file, the settings, and the methods of the class. -/
structure Env (δ ω : Type) where
  cfg : Cfg
  defaultName : Str := py!"DEFAULT"       -- default_section_name
  level : Nat := 4                        -- exception_control_level
  silentWarnings : Bool := false
  compactWarnings : Bool := false
  debug : Nat := 0                        -- debug_level
  hookInit : Handler δ ω                -- handler_initialize
  hookFinal : Handler δ ω                  -- handler_finalize
  pub : Str → Option (Handler δ ω)        -- other methods handler_<op>
  priv : Str → Option (Impl δ ω)          -- methods _handler_<op>, `use` included
  emptyShared : δ                         -- the empty data_shared

section
variable {δ ω : Type} (E : Env δ ω)

/-- ConfigParserEnhanced.py:1348-1374 `_loginfo_add`. -/
def logAdd (l : LogEntry) : M (World δ ω) Unit :=
  M.modify fun w => if E.debug > 0 then { w with log := w.log ++ [l] } else w

/-- `self.exception_control_event(ev, e, ...)` (ExceptionControl.py:215-315). -/
def ecEvent (ev : Event) (e : PyExc) : M (World δ ω) Unit := fun w =>
  let r := fireEvent E.level E.silentWarnings E.compactWarnings ev e
  (r.1, { w with out := w.out ++ r.2 })

/-- ConfigParserEnhanced.py:1209-1243 `_check_handler_rval` (its own return value is not used). -/
def checkRval (r : Ret) : M (World δ ω) Unit :=
  match r with
  | .notInt => M.raise .typeError                       -- _validate_parameter, CATASTROPHIC
  | .int i =>
    if i = 0 then pure ()
    else if i ≤ 10 then ecEvent E .warning .runtimeError
    else ecEvent E .catastrophic .runtimeError

/-- ConfigParserEnhanced.py:692-720 the `operation_handler` wrapper, with `enter_handler` (726-755) and
`exit_handler` (757-783); console messages not modelled. -/
def operationHandler (c : HCall) (body : M (World δ ω) Ret) : M (World δ ω) Unit := do
  logAdd E (.handlerEntry c.handlerName c.rawKey c.rawValue)
  let r ← body
  logAdd E (.handlerExit c.handlerName c.rawKey c.rawValue)
  checkRval E r

/-- Run the body of a subclass handler. -/
def runHandlerBody (h : Handler δ ω) (c : HCall) : M (World δ ω) Ret := fun w =>
  let r := h.run c w.shared w.self
  let w := { w with shared := r.2.1, self := r.2.2 }
  match r.1 with
  | .ok v => (.ok v, w)
  | .error e => (.exc e, w)

/-- Call a subclass handler, decorated or not. -/
def callHandler (h : Handler δ ω) (c : HCall) : M (World δ ω) Unit :=
  if h.decorated then operationHandler E c (runHandlerBody h c)
  else do
    let _ ← runHandlerBody h c
    pure ()

/-- ConfigParserEnhanced.py:1717-1735 `ConfigParserEnhancedData.add_section` with `force=False`. -/
def addSection (s : Str) : M (World δ ω) Unit :=
  M.modify fun w => if Dict.mem w.data s then w else { w with data := Dict.set w.data s [] }

/-- ConfigParserEnhanced.py:1737-1746 `ConfigParserEnhancedData.set(root, k, v)`, called during the parse
of `root`: `has_section(root)` does not parse again because `root` is in `_sections_checked`. -/
def dataSet (root k : Str) (v : Option Str) : M (World δ ω) Unit := do
  addSection root
  M.modify fun w =>
    { w with data := Dict.set w.data root (Dict.set ((Dict.get? w.data root).getD []) k v) }

/-- ConfigParserEnhanced.py:1245-1273 `_launch_generic_option_handler`, with
`_generic_option_handler` (785-813). -/
def launchGeneric (root sec k : Str) (v : Option Str) : M (World δ ω) Unit := do
  dataSet root k v
  operationHandler E
    { sectionName := sec, sectionRoot := root, rawKey := some k, rawValue := v,
      handlerName := py!"_generic_option_handler" }
    (pure (.int 0))

/-- `re.match(r"^[\w\-]+$", tok)` (ConfigParserEnhanced.py:979): `$` also matches before a final newline. -/
def matchesOp (t : Str) : Bool :=
  let body := if t.getLast? = some '\n' then t.dropLast else t
  body ≠ [] && body.all fun c => isWord c || c == '-'

/-- ConfigParserEnhanced.py:1097-1110 `_apply_transformation_to_operation`. -/
def opOfToken (t : Str) : Str := replaceChar '-' '_' t

/-- `getattr(self, "handler_" + op, None)` (ConfigParserEnhanced.py:1169, 1201): the two hooks are always there. -/
def publicMethod (op : Str) : Option (Handler δ ω) :=
  if op = py!"initialize" then some E.hookInit
  else if op = py!"finalize" then some E.hookFinal
  else E.pub op

/-- ConfigParserEnhanced.py:1126-1188 `_locate_handler_method` (name and method, if any). -/
def locateHandler (operation : Str) : M (World δ ω) (Option (Str × Impl δ ω)) :=
  let op := opOfToken operation
  let pub := publicMethod E op
  let priv := E.priv op
  do
    if pub.isSome && priv.isSome then
      ecEvent E .serious .ambiguousHandler
    match pub, priv with
    | some h, _ => pure (some (py!"handler_" ++ op, .user h))
    | none, some i => pure (some (py!"_handler_" ++ op, i))
    | none, none => pure none

/-- ConfigParserEnhanced.py:1279-1316 `_handler_use`; `rec t` is
`_parse_section_r(t, handler_parameters, initialize=True, finalize=False)`. -/
def useBody (rec : Str → M (World δ ω) Unit) (c : HCall) : M (World δ ω) Ret := do
  match c.params with
  | [] => M.raise .indexError
  | t :: _ =>
    let w ← M.read
    if t ∈ w.processed then do
      logAdd E (.cycleDetected c.sectionName c.op)
      logAdd E (.handlerExit c.handlerName c.rawKey c.rawValue)
      ecEvent E .warning .valueError
    else rec t
    pure (.int 0)

/-- Call a located method. -/
def callImpl (rec : Str → M (World δ ω) Unit) (i : Impl δ ω) (c : HCall) : M (World δ ω) Unit :=
  match i with
  | .use => operationHandler E c (useBody E rec c)
  | .user h => callHandler E h c

/-- ConfigParserEnhanced.py:954-1003: one turn of the loop over the options of a section. -/
def processOption (rec : Str → M (World δ ω) Unit) (root sec key : Str) : M (World δ ω) Unit := do
  let v ← M.ofExcept (E.cfg.value sec key)
  let k := strip key
  let v := v.map fun s => stripQuotes (strip s)
  logAdd E (.keyValue k v)
  let toks ← M.ofExcept (tokenizeOptionKey k)
  match toks with
  | [] => M.raise .indexError
  | t :: params =>
    if matchesOp t = false then launchGeneric E root sec k v
    else do
      let op := opOfToken t
      logAdd E (.operation op params)
      let h ← locateHandler E op
      match h with
      | none => launchGeneric E root sec k v
      | some (name, impl) =>
        callImpl E rec impl
          { sectionName := sec, sectionRoot := root, rawKey := some k, rawValue := v, op := op,
            params := params, value := v, handlerName := name }

/-- ConfigParserEnhanced.py:930-1024: a section, after the initialization phase. -/
def parseMain (rec : Str → M (World δ ω) Unit) (root sec : Str) (fin : Bool) :
    M (World δ ω) Unit := do
  logAdd E (.sectionEntry sec)
  match E.cfg.optionNames sec with
  | none => M.raise .keyError
  | some names =>
    addSection sec
    M.modify fun w => { w with processed := setAdd w.processed sec }
    M.forEach names (processOption E rec root sec)
    if fin && sec = root then
      callHandler E E.hookFinal
        { sectionName := sec, sectionRoot := root, handlerName := py!"handler_finalize" }
    let w ← M.read
    if sec ∈ w.processed then
      M.modify fun w => { w with processed := setDel w.processed sec }
      logAdd E (.sectionExit sec)
    else M.raise .keyError

/-- ConfigParserEnhanced.py:869-1024 `_parse_section_r` once `handler_parameters` exist; `root` is
`handler_parameters.section_root`. The first argument bounds the recursion depth. -/
def parseR : Nat → Str → Str → Bool → Bool → M (World δ ω) Unit
  | 0, _, _, _, _ => fun w => (.diverge, w)
  | n + 1, root, sec, init, fin => do
    if init && sec = root then
      callHandler E E.hookInit
        { sectionName := sec, sectionRoot := root, handlerName := py!"handler_initialize" }
      if E.cfg.hasSection E.defaultName then
        parseR n root E.defaultName false false
    parseMain E (fun t => parseR n root t true false) root sec fin

/-- ConfigParserEnhanced.py:892-907, 1071-1095: `_parse_section_r(section)` called without
`handler_parameters`, as `parse_section` does (653-686): fresh `data_shared` and `processed_sections`,
cleared log, and the root recorded in `_sections_checked`. Returns `data_shared`. -/
def parseRoot (fuel : Nat) (sec : Str) (init fin : Bool) : M (World δ ω) δ := do
  M.modify fun w => { w with processed := [], shared := E.emptyShared, log := [],
                             checked := setAdd w.checked sec }
  parseR E fuel sec sec init fin
  let w ← M.read
  pure w.shared

end
end CPE
