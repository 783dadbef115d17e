import Verif.Model.EnhancedData
/-
Model of a parse whose handlers use the object they belong to: a handler may call `parse_section`, look up or write
the enhanced data, and assign the exception control level, while the parse that called it is under way
(src/configparserenhanced/ConfigParserEnhanced.py). The functions are those of `Model/Parser` and
`Model/EnhancedData`; only the handlers and the state are richer.
-/
namespace CPE.Re
open CPE

/-- What a handler does, step by step. `k` is the rest, given what the step returned or the exception that it raised
(which the handler may catch or raise again). Handlers that edit `data_internal`, or bind another dict to
`handler_parameters.data_shared`, are not modelled. -/
inductive Prog (δ ω : Type) where
  | done (r : Except PyExc Ret)                                          -- return, or raise
  | look (k : δ → ω → Prog δ ω)                                          -- read data_shared and its own attributes
  | put (d : δ) (o : ω) (k : Prog δ ω)                                   -- change them
  | level (i : Int) (k : Prog δ ω)                                       -- self.exception_control_level = i
  | parse (s : Str) (init fin : Bool) (k : Except PyExc δ → Prog δ ω)    -- self.parse_section(s, init, fin)
  | get (s : Str) (k : Except PyExc Options → Prog δ ω)                  -- self.configparserenhanceddata.get(s)
  | set (s key : Str) (v : Option Str) (k : Except PyExc Unit → Prog δ ω) -- self.configparserenhanceddata.set(s, key, v)

/-- The state of an object, with the exception control level. -/
structure State (δ ω : Type) extends Obj δ ω where
  level : Nat

/-- `parse_section`. -/
abbrev Caller (δ ω : Type) := Str → Bool → Bool → M (State δ ω) δ

section
variable {δ ω α : Type} (E : Env δ ω) (P : HCall → Prog δ ω)

/-- Code of the parser that calls no handler, at the current exception control level. -/
def lift (f : Env δ ω → M (World δ ω) α) : M (State δ ω) α := fun s =>
  ((f { E with level := s.level } s.toWorld).1, { s with toWorld := (f { E with level := s.level } s.toWorld).2 })

/-- A call that a handler makes. Whatever it does, the running parse keeps its own `handler_parameters`
(ConfigParserEnhanced.py:892-907): `data_shared` and the sections being processed. The exception is given to the
handler. -/
def aside (m : M (State δ ω) α) : M (State δ ω) (Except PyExc α) := fun s =>
  let back (t : State δ ω) : State δ ω := { t with shared := s.shared, processed := s.processed }
  match m s with
  | (.ok a, t) => (.ok (.ok a), back t)
  | (.exc e, t) => (.ok (.error e), back t)
  | (.diverge, t) => (.diverge, back t)

/-- ConfigParserEnhanced.py:1787-1816 `_parse_owner_section`, not forced. -/
def ownerParse (call : Caller δ ω) (s : Str) : M (State δ ω) Unit := do
  let o ← M.read
  if s ∉ o.checked then do
    M.modify fun o => { o with checked := setAdd o.checked s }
    let _ ← call s true true
    pure ()
  else pure ()

/-- ConfigParserEnhanced.py:1650-1656: a section of the file is parsed first. -/
def parseIfInFile (call : Caller δ ω) (s : Str) : M (State δ ω) Unit :=
  if E.cfg.hasSection s = true then ownerParse call s else pure ()

/-- ConfigParserEnhanced.py:1639-1660 `has_section`. -/
def dataHas (call : Caller δ ω) (s : Str) : M (State δ ω) Bool := do
  parseIfInFile E call s
  let o ← M.read
  pure (Dict.mem o.data s)

/-- ConfigParserEnhanced.py:1687-1715 `get(section)`. -/
def dataGet (call : Caller δ ω) (s : Str) : M (State δ ω) Options := do
  ownerParse call s
  let b ← dataHas E call s
  if b = true then do
    let o ← M.read
    pure ((Dict.get? o.data s).getD [])
  else M.raise .keyError

/-- ConfigParserEnhanced.py:1737-1746 `set`, with `add_section` (1717-1735). -/
def dataPut (call : Caller δ ω) (s k : Str) (v : Option Str) : M (State δ ω) Unit := do
  let b ← dataHas E call s
  M.modify fun o => if b = true then o else { o with data := Dict.set o.data s [] }
  M.modify fun o => { o with data := Dict.set o.data s (Dict.set ((Dict.get? o.data s).getD []) k v) }

/-- The body of a handler. The level is clamped (ExceptionControl.py:207-213). -/
def runProg (call : Caller δ ω) : Prog δ ω → M (State δ ω) Ret
  | .done r => M.ofExcept r
  | .look k => fun s => runProg call (k s.shared s.self) s
  | .put d o k => fun s => runProg call k { s with shared := d, self := o }
  | .level i k => fun s => runProg call k { s with level := (min 5 (max 0 i)).toNat }
  | .parse s i f k => do
    let r ← aside (call s i f)
    runProg call (k r)
  | .get s k => do
    let r ← aside (dataGet E call s)
    runProg call (k r)
  | .set s key v k => do
    let r ← aside (dataPut E call s key v)
    runProg call (k r)

/-- ConfigParserEnhanced.py:692-720 the `operation_handler` wrapper. -/
def opHandler (c : HCall) (body : M (State δ ω) Ret) : M (State δ ω) Unit := do
  lift E fun E => logAdd E (.handlerEntry c.handlerName c.rawKey c.rawValue)
  let r ← body
  lift E fun E => logAdd E (.handlerExit c.handlerName c.rawKey c.rawValue)
  lift E fun E => checkRval E r

/-- Call a subclass handler, decorated or not. Its body is `P c`: the name of the method is part of `c`. -/
def callHandler (call : Caller δ ω) (h : Handler δ ω) (c : HCall) : M (State δ ω) Unit :=
  if h.decorated = true then opHandler E c (runProg E call (P c))
  else do
    let _ ← runProg E call (P c)
    pure ()

/-- ConfigParserEnhanced.py:1279-1316 `_handler_use`. -/
def useBody (rec : Str → M (State δ ω) Unit) (c : HCall) : M (State δ ω) Ret :=
  match c.params with
  | [] => M.raise .indexError
  | t :: _ => do
    let w ← M.read
    if t ∈ w.processed then do
      lift E fun E => logAdd E (.cycleDetected c.sectionName c.op)
      lift E fun E => logAdd E (.handlerExit c.handlerName c.rawKey c.rawValue)
      lift E fun E => ecEvent E .warning .valueError
      pure (.int 0)
    else do
      rec t
      pure (.int 0)

/-- Call a located method. -/
def callImpl (call : Caller δ ω) (rec : Str → M (State δ ω) Unit) (i : Impl δ ω) (c : HCall) : M (State δ ω) Unit :=
  match i with
  | .use => opHandler E c (useBody E rec c)
  | .user h => callHandler E P call h c

/-- ConfigParserEnhanced.py:954-1003: one turn of the loop over the options of a section. -/
def processOption (call : Caller δ ω) (rec : Str → M (State δ ω) Unit) (root sec key : Str) : M (State δ ω) Unit := do
  let v ← M.ofExcept (E.cfg.value sec key)
  let k := strip key
  let v := v.map fun s => stripQuotes (strip s)
  lift E fun E => logAdd E (.keyValue k v)
  let toks ← M.ofExcept (tokenizeOptionKey k)
  match toks with
  | [] => M.raise .indexError
  | t :: params =>
    if matchesOp t = false then lift E fun E => launchGeneric E root sec k v
    else do
      let op := opOfToken t
      lift E fun E => logAdd E (.operation op params)
      let h ← lift E fun E => locateHandler E op
      match h with
      | none => lift E fun E => launchGeneric E root sec k v
      | some (name, impl) =>
        callImpl E P call rec impl
          { sectionName := sec, sectionRoot := root, rawKey := some k, rawValue := v, op := op,
            params := params, value := v, handlerName := name }

/-- ConfigParserEnhanced.py:1004-1010: the final hook. -/
def finalHook (call : Caller δ ω) (root sec : Str) (fin : Bool) : M (State δ ω) Unit :=
  if fin = true ∧ sec = root then
    callHandler E P call E.hookFinal
      { sectionName := sec, sectionRoot := root, handlerName := py!"handler_finalize" }
  else pure ()

/-- ConfigParserEnhanced.py:1004-1024: the end of a section. -/
def leave (call : Caller δ ω) (root sec : Str) (fin : Bool) : M (State δ ω) Unit := do
  finalHook E P call root sec fin
  let w ← M.read
  if sec ∈ w.processed then do
    M.modify fun w => { w with processed := setDel w.processed sec }
    lift E fun E => logAdd E (.sectionExit sec)
  else M.raise .keyError

/-- ConfigParserEnhanced.py:930-1024: a section, after the initialization phase. -/
def parseMain (call : Caller δ ω) (rec : Str → M (State δ ω) Unit) (root sec : Str) (fin : Bool) :
    M (State δ ω) Unit := do
  lift E fun E => logAdd E (.sectionEntry sec)
  match E.cfg.optionNames sec with
  | none => M.raise .keyError
  | some names => do
    lift E fun _ => addSection sec
    M.modify fun w => { w with processed := setAdd w.processed sec }
    M.forEach names (processOption E P call rec root sec)
    leave E P call root sec fin

/-- ConfigParserEnhanced.py:869-1024 `_parse_section_r` once `handler_parameters` exist. The number bounds the depth of
`use`. -/
def parseR (call : Caller δ ω) : Nat → Str → Str → Bool → Bool → M (State δ ω) Unit
  | 0, _, _, _, _ => fun w => (.diverge, w)
  | n + 1, root, sec, init, fin =>
    let main := parseMain E P call (fun t => parseR call n root t true false) root sec fin
    if init = true ∧ sec = root then do
      callHandler E P call E.hookInit
        { sectionName := sec, sectionRoot := root, handlerName := py!"handler_initialize" }
      if E.cfg.hasSection E.defaultName = true then do
        parseR call n root E.defaultName false false
        main
      else main
    else main

/-- ConfigParserEnhanced.py:653-686 `parse_section`, with the start of `_parse_section_r` (892-907, 1071-1095). -/
def parseSection (call : Caller δ ω) (n : Nat) : Caller δ ω := fun s init fin => do
  M.modify fun o => { o with log := [] }
  if s = [] then M.raise .valueError
  else do
    M.modify fun w => { w with processed := [], shared := E.emptyShared, checked := setAdd w.checked s }
    parseR E P call n s s init fin
    let w ← M.read
    M.modify fun o => { o with lastResult := some w.shared }
    pure w.shared

/-- `parse_section` where handlers call `parse_section`, and so on: `d` bounds the depth of that, `n` the depth of
`use`. -/
def parse : Nat → Nat → Caller δ ω
  | 0, _ => fun _ _ _ w => (.diverge, w)
  | d + 1, n => parseSection E P (parse d n) n

end
end CPE.Re
