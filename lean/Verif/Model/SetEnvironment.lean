import Verif.Model.EnhancedData
/-
Model of wip/setenvironment/src/setenvironment/SetEnvironment.py: the environment operations, the class
`SetEnvironment` (a subclass of ConfigParserEnhanced whose handlers collect a list of actions per section),
`apply`, and the generated scripts. Line numbers refer to that file unless another one is named.
-/
namespace CPE.SetEnv

/-! ### Environment variables -/

/-- `os.environ` (decoded). -/
abbrev Environ := Dict Str Str

/-- What the model does not look into: the search of an executable in the path (as a function of the
environment), the external `module` command (`ModuleHelper.module`, ModuleHelper.py: its status or exception, and
what it does to the environment; see Model/ModuleHelper), and the fixed texts of the script headers (L1609-1797). -/
structure Sys where
  which : Environ → Str → Option Str
  module : List Str → M Environ Int
  bashHeader : Str
  pythonHeader : Str

/-- `os.environ[name] = value` (CPython `os.putenv`): NUL characters and `=` in the name are a ValueError, the
empty name is an OSError. -/
def putEnv (name value : Str) : M Environ Unit := fun env =>
  if Char.ofNat 0 ∈ name ∨ Char.ofNat 0 ∈ value ∨ '=' ∈ name then (.exc .valueError, env)
  else if name = [] then (.exc .ioError, env)
  else (.ok (), Dict.set env name value)

/-- `del d[k]` for a dict. -/
def dictDel (d : Environ) (k : Str) : Environ := d.filter fun kv => decide (kv.1 ≠ k)

/-- L42-75 `envvar_set` (arguments of the right types). -/
def envvarSet (name value : Str) (allowEmpty : Bool) : M Environ Int := do
  if allowEmpty = false ∧ value = [] then M.raise .valueError
  else do
    putEnv name value
    pure 0

/-- L79-115 `envvar_set_if_empty`. -/
def envvarSetIfEmpty (name value : Str) (allowEmpty : Bool) : M Environ Int := do
  if allowEmpty = false ∧ value = [] then M.raise .valueError
  else do
    let env ← M.read
    if Dict.get? env name = none ∨ Dict.get? env name = some [] then putEnv name value
    pure 0

/-- The class `\w` of an ASCII regular expression (posixpath.py `expandvars`). -/
def isAsciiWord (c : Char) : Bool :=
  ('a' ≤ c && c ≤ 'z') || ('A' ≤ c && c ≤ 'Z') || ('0' ≤ c && c ≤ '9') || c == '_'

/-- `\$(\w+|\{[^}]*\})` (posixpath.py `expandvars`), at the text after a `$`: the name, and how many characters
were read. -/
def matchRef : Str → Option (Str × Nat)
  | [] => none
  | c :: cs =>
    if c = '{' then
      if '}' ∈ cs then some (cs.takeWhile (· ≠ '}'), (cs.takeWhile (· ≠ '}')).length + 2) else none
    else
      let name := (c :: cs).takeWhile isAsciiWord
      if name = [] then none else some (name, name.length)

/-- The loop of posixpath.py `expandvars`: references to variables that are set are replaced by their value,
which is not looked at again; others stay. The number counts characters still to be skipped. -/
def expandGo (env : Environ) : Nat → Str → Str
  | _, [] => []
  | k + 1, _ :: cs => expandGo env k cs
  | 0, c :: cs =>
    if c = '$' then
      match matchRef cs with
      | some (name, len) =>
        match Dict.get? env name with
        | some v => v ++ expandGo env len cs
        | none => c :: cs.take len ++ expandGo env len cs
      | none => c :: expandGo env 0 cs
    else c :: expandGo env 0 cs

/-- `os.path.expandvars(s)` on a POSIX system, called at L185-186 when there is a `$`. -/
def expandvars (env : Environ) (s : Str) : Str := if '$' ∈ s then expandGo env 0 s else s

/-- The loop of `s.replace(sub, "")` for a non-empty `sub`; the number counts characters still to be skipped. -/
def removeGo (sub : Str) : Nat → Str → Str
  | _, [] => []
  | k + 1, _ :: cs => removeGo sub k cs
  | 0, c :: cs => if sub.isPrefixOf (c :: cs) then removeGo sub (sub.length - 1) cs else c :: removeGo sub 0 cs

/-- `s.replace(sub, "")` (L205). -/
def removeSubstr (sub s : Str) : Str := if sub = [] then s else removeGo sub 0 s

/-- `s.split(sep)` for one character (L209, `os.pathsep`). -/
def splitChar (sep : Char) : Str → List Str
  | [] => [[]]
  | c :: cs =>
    if c = sep then [] :: splitChar sep cs
    else match splitChar sep cs with
      | [] => [[c]]
      | w :: ws => (c :: w) :: ws

/-- L151-227 `envvar_op` (arguments of the right types; `os.pathsep` is ":"; the message of the ValueError of
assert_not_empty is not modelled). -/
def envvarOp (sys : Sys) (op name value : Str) (allowEmpty : Bool) : M Environ Int := do
  if allowEmpty = false ∧ value = [] then M.raise .valueError
  else do
    let env ← M.read
    let old := Dict.get? env name
    let value := if value ≠ [] ∧ '$' ∈ value then expandvars env value else value
    if op = py!"set" then do
      let _ ← envvarSet name value allowEmpty
    else if op = py!"set_if_empty" then do
      let _ ← envvarSetIfEmpty name value allowEmpty
    else if op = py!"append" then do
      let _ ← envvarSet name (joinStr py!":" (old.toList ++ [value])) allowEmpty
    else if op = py!"prepend" then do
      let _ ← envvarSet name (joinStr py!":" ([value] ++ old.toList)) allowEmpty
    else if op = py!"unset" then
      if old.isSome = true then M.modify fun env => dictDel env name
    else if op = py!"remove_substr" then
      match old with
      | some v => do let _ ← envvarSet name (removeSubstr value v) allowEmpty
      | none => pure ()
    else if op = py!"remove_path_entry" then
      match old with
      | some v => do
        let entries := (splitChar ':' v).filter fun x => decide (x ≠ value)
        let _ ← envvarSet name (joinStr py!":" entries) allowEmpty
      | none => pure ()
    else if op = py!"find_in_path" then do
      let _ ← envvarSet name ((sys.which env value).getD []) allowEmpty
    else if op = py!"assert_not_empty" then
      if old = none ∨ old = some [] then M.raise .valueError
    else M.raise .valueError
    pure 0

/-! ### The class: handlers that collect actions -/

/-- An entry of the action list: `{'op': .., 'envvar': .., 'value': ..}` or `{'op': .., 'module': .., 'value': ..}`
(L1254, L1305). -/
inductive Action where
  | envvar (op name : Str) (value : Option Str)
  | module (op : Str) (name value : Option Str)
  deriving DecidableEq, Repr

/-- `data_shared`, of which only the key 'setenvironment' is used (absent: `none`). -/
abbrev Shared := Option (List Action)

/-- `actions`: the action lists by section (L264-298). Lists are values here: nothing appends to a list after it has
been put into `actions`, as long as no option of the file names the operations `initialize` or `finalize`. -/
abbrev Actions := Dict Str (List Action)

/-- L1312-1330 `_initialize_handler_parameters`. -/
def initShared (d : Shared) : List Action := d.getD []

/-- L1212-1259 `_helper_handler_common_envvar`. -/
def helperEnvvar (c : HCall) (value : Option Str) (d : Shared) (a : Actions) : Except PyExc Ret × Shared × Actions :=
  match c.params with
  | [] => (.error .indexError, d, a)
  | name :: _ => (.ok (.int 0), some (initShared d ++ [.envvar c.op name value]), a)

/-- L1261-1310 `_helper_handler_common_module`. -/
def helperModule (c : HCall) (d : Shared) (a : Actions) : Except PyExc Ret × Shared × Actions :=
  (.ok (.int 0), some (initShared d ++ [.module c.op c.params.head? c.value]), a)

/-- `m in v` for strings (L1004). -/
def isSubstr (m : Str) : Str → Bool
  | [] => m.isEmpty
  | c :: cs => m.isPrefixOf (c :: cs) || isSubstr m cs

/-- The handlers that only call `_helper_handler_common_envvar` (L671-690, L744-788, L823-931). -/
def handlerEnvvar : Handler Shared Actions where
  decorated := true
  run c d a := helperEnvvar c c.value d a

/-- L693-741 `_handler_envvar_assert_not_empty`. -/
def handlerAssert : Handler Shared Actions where
  decorated := true
  run c d a := helperEnvvar c (some (c.value.getD [])) d a

/-- L791-820 `_handler_envvar_remove`. -/
def handlerEnvvarRemove : Handler Shared Actions where
  decorated := true
  run c d a :=
    match d with
    | none => (.error .keyError, d, a)
    | some l =>
      match c.params with
      | [] => (.error .indexError, d, a)
      | name :: _ =>
        (.ok (.int 0), some (l.filter fun
          | .envvar _ n _ => decide (n ≠ name)
          | .module _ _ _ => true), a)

/-- L934-966, L1016-1067: the handlers that only call `_helper_handler_common_module`. -/
def handlerModule : Handler Shared Actions where
  decorated := true
  run c d a := helperModule c d a

/-- L969-1013 `_handler_module_remove`. -/
def handlerModuleRemove : Handler Shared Actions where
  decorated := true
  run c d a :=
    match d with
    | none => (.error .keyError, d, a)
    | some l =>
      match c.params with
      | [] => (.error .indexError, d, a)
      | m :: _ =>
        (.ok (.int 0), some (l.filter fun
          | .module _ n v => decide (n ≠ some m) && (match v with
            | none => true
            | some v => !isSubstr m v)
          | .envvar _ _ _ => true), a)

/-- L1070-1085 `handler_initialize`. -/
def hookInit : Handler Shared Actions where
  decorated := true
  run _ d a := (.ok (.int 0), some (initShared d), a)

/-- L1088-1098 `handler_finalize`. -/
def hookFinal : Handler Shared Actions where
  decorated := true
  run c d a :=
    match d with
    | none => (.error .keyError, d, a)
    | some l => (.ok (.int 0), d, Dict.set a c.sectionName l)

/-- The methods `_handler_<op>` of the class (L671-1067), and the inherited `_handler_use`. -/
def privMethod (op : Str) : Option (Impl Shared Actions) :=
  if op = py!"use" then some .use
  else if op = py!"envvar_append" then some (.user handlerEnvvar)
  else if op = py!"envvar_assert_not_empty" then some (.user handlerAssert)
  else if op = py!"envvar_find_in_path" then some (.user handlerEnvvar)
  else if op = py!"envvar_prepend" then some (.user handlerEnvvar)
  else if op = py!"envvar_remove" then some (.user handlerEnvvarRemove)
  else if op = py!"envvar_remove_path_entry" then some (.user handlerEnvvar)
  else if op = py!"envvar_remove_substr" then some (.user handlerEnvvar)
  else if op = py!"envvar_set" then some (.user handlerEnvvar)
  else if op = py!"envvar_set_if_empty" then some (.user handlerEnvvar)
  else if op = py!"envvar_unset" then some (.user handlerEnvvar)
  else if op = py!"module_load" then some (.user handlerModule)
  else if op = py!"module_purge" then some (.user handlerModule)
  else if op = py!"module_remove" then some (.user handlerModuleRemove)
  else if op = py!"module_swap" then some (.user handlerModule)
  else if op = py!"module_unload" then some (.user handlerModule)
  else if op = py!"module_use" then some (.user handlerModule)
  else none

/-- The settings of an object (ConfigParserEnhanced, ExceptionControl, Debuggable). -/
structure Settings where
  defaultName : Str := py!"DEFAULT"
  level : Nat := 4
  silentWarnings : Bool := false
  compactWarnings : Bool := false
  debug : Nat := 0

/-- A `SetEnvironment` object whose file says `cfg` (L235-1098). -/
def env (cfg : Cfg) (st : Settings) : Env Shared Actions where
  cfg := cfg
  defaultName := st.defaultName
  level := st.level
  silentWarnings := st.silentWarnings
  compactWarnings := st.compactWarnings
  debug := st.debug
  hookInit := hookInit
  hookFinal := hookFinal
  pub _ := none
  priv := privMethod
  emptyShared := none

/-! ### Commands -/

/-- L1830-1859 `_remove_prefix`. -/
def removePrefix (pre text : Str) : Str := (List.isPrefixOf? pre text).getD text

/-- `'"' + x + '"'`; TypeError if x is None. -/
def quoteArg : Option Str → Except PyExc Str
  | some x => .ok (['"'] ++ x ++ ['"'])
  | none => .error .typeError

/-- A list comprehension that may raise. -/
def mapArgs (f : Option Str → Except PyExc Str) : List (Option Str) → Except PyExc (List Str)
  | [] => .ok []
  | x :: xs => match f x with
    | .error e => .error e
    | .ok y => match mapArgs f xs with
      | .error e => .error e
      | .ok ys => .ok (y :: ys)

/-- An argument joined without quotes (`" ".join`); TypeError if it is None. -/
def plainArg : Option Str → Except PyExc Str
  | some x => .ok x
  | none => .error .typeError

/-- The operations with two arguments (L1459-1468). -/
def twoArgOps : List Str :=
  [py!"append", py!"assert_not_empty", py!"find_in_path", py!"prepend", py!"remove_path_entry", py!"remove_substr",
   py!"set", py!"set_if_empty"]

section
variable (E : Env Shared Actions)

/-- L1332-1494 `_gen_actioncmd_envvar(op, name, value, interp)`. -/
def genEnvvar (op name : Str) (value : Option Str) (interp : Str) : M (World Shared Actions) Str := do
  let op := removePrefix py!"envvar_" op
  let args ← (if op = py!"unset" then pure [some op, some name]
    else if op ∈ twoArgOps then pure [some op, some name, value]
    else do
      ecEvent E .serious .valueError
      pure [some op] : M (World Shared Actions) (List (Option Str)))
  if interp = py!"python" then do
    let qs ← M.ofExcept (mapArgs quoteArg args)
    pure (py!"envvar_op(" ++ joinStr py!"," qs ++ py!")")
  else if interp = py!"bash" then do
    let qs ← M.ofExcept (mapArgs quoteArg args.tail)
    pure (py!"envvar_op " ++ joinStr py!" " (op :: qs))
  else do
    ecEvent E .serious .valueError
    pure []

/-- L1496-1607 `_gen_actioncmd_module(op, name, value, interp)`. -/
def genModule (op : Str) (name value : Option Str) (interp : Str) : M (World Shared Actions) Str := do
  let op := removePrefix py!"module_" op
  let args ← (if op = py!"purge" then pure [some op]
    else if op = py!"use" then pure [some op, value]
    else if op = py!"load" then
      if value = none ∨ value = some [] then pure [some op, name]
      else match name, value with
        | some n, some v => pure [some op, some (n ++ py!"/" ++ v)]
        | _, _ => M.raise .typeError
    else if op = py!"unload" then pure [some op, name]
    else if op = py!"swap" then pure [some op, name, value]
    else do
      ecEvent E .serious .valueError
      pure [some op] : M (World Shared Actions) (List (Option Str)))
  if interp = py!"python" then do
    let qs ← M.ofExcept (mapArgs quoteArg args)
    pure (py!"ModuleHelper.module(" ++ joinStr py!"," qs ++ py!")")
  else if interp = py!"bash" then do
    let qs ← M.ofExcept (mapArgs plainArg args)
    pure (py!"module " ++ joinStr py!" " qs)
  else do
    ecEvent E .serious .valueError
    pure []

/-- The command of an action (L643-658). -/
def genAction (interp : Str) : Action → M (World Shared Actions) Str
  | .envvar op name value => genEnvvar E op name value interp
  | .module op name value => genModule E op name value interp

end

/-! ### Executing a command -/

/-- What Python says about a text that is no program. -/
def syntaxError {α : Type} : Except PyExc α := .error (.user py!"SyntaxError")

/-- Text whose reading would need more of Python. -/
def notRead {α : Type} : Except PyExc α := .error (.user py!"NotModelled")

/-- The value of a digit, up to 15. -/
def digitVal (c : Char) : Nat :=
  if '0' ≤ c ∧ c ≤ '9' then c.toNat - '0'.toNat
  else if 'a' ≤ c ∧ c ≤ 'f' then c.toNat - 'a'.toNat + 10
  else if 'A' ≤ c ∧ c ≤ 'F' then c.toNat - 'A'.toNat + 10
  else 16

def isOctal (c : Char) : Bool := digitVal c < 8
def isHex (c : Char) : Bool := digitVal c < 16

/-- The number that digits stand for. -/
def numeral (base : Nat) (ds : Str) : Nat := ds.foldl (fun n c => n * base + digitVal c) 0

/-- The escapes of one character in a Python string literal. -/
def simpleEscapes : Dict Char Char :=
  [('\\', '\\'), ('\'', '\''), ('"', '"'), ('a', Char.ofNat 7), ('b', Char.ofNat 8), ('f', Char.ofNat 12), ('n', '\n'), ('r', '\r'),
   ('t', '\t'), ('v', Char.ofNat 11)]

/-- `\xhh`, `\uhhhh`, `\Uhhhhhhhh`, after the letter: all digits have to be there. A surrogate is a character for Python, but
not here. -/
def hexEscape (n : Nat) (cs : Str) : Except PyExc (Str × Nat) :=
  let ds := cs.take n
  if ds.length = n ∧ ds.all isHex = true then
    if 0x10FFFF < numeral 16 ds then syntaxError
    else if (numeral 16 ds).isValidChar then .ok ([Char.ofNat (numeral 16 ds)], n + 1)
    else notRead
  else syntaxError

/-- What follows a backslash in a Python string literal: the text it stands for, and how many characters were read. An
unknown escape stays as it is (Python warns). Python has `\r` and `\r\n` for line ends too. `\N{...}` is not modelled. -/
def escape : Str → Except PyExc (Str × Nat)
  | [] => syntaxError
  | c :: cs =>
    if c = '\n' then .ok ([], 1)
    else if c = '\r' then .ok ([], if cs.head? = some '\n' then 2 else 1)
    else match Dict.get? simpleEscapes c with
      | some d => .ok ([d], 1)
      | none =>
        if isOctal c = true then
          let ds := ((c :: cs).take 3).takeWhile isOctal
          .ok ([Char.ofNat (numeral 8 ds)], ds.length)
        else if c = 'x' then hexEscape 2 cs
        else if c = 'u' then hexEscape 4 cs
        else if c = 'U' then hexEscape 8 cs
        else if c = 'N' ∨ c = Char.ofNat 0 then notRead
        else .ok (['\\', c], 1)

/-- Where the reader of a call is: before a literal, inside one (with characters still to be skipped), or after one. -/
inductive ReadState where
  | start
  | lit (skip : Nat) (done : List Str) (cur : Str)
  | after (done : List Str)
  | next (done : List Str)

/-- The arguments of a Python call, all of them double-quoted literals, and the text after the call: the part of Python's
grammar that the generated commands use. After a literal Python might go on with an expression; this is not modelled. -/
def readArgs : ReadState → Str → Except PyExc (List Str × Str)
  | .start, '"' :: cs => readArgs (.lit 0 [] []) cs
  | .lit (k + 1) done cur, _ :: cs => readArgs (.lit k done cur) cs
  | .lit 0 done cur, c :: cs =>
    if c = '"' then readArgs (.after (done ++ [cur])) cs
    else if c = '\n' ∨ c = '\r' then syntaxError
    else if c = Char.ofNat 0 then notRead
    else if c = '\\' then
      match escape cs with
      | .ok (t, k) => readArgs (.lit k done (cur ++ t)) cs
      | .error e => .error e
    else readArgs (.lit 0 done (cur ++ [c])) cs
  | .lit _ _ _, [] => syntaxError
  | .after done, c :: cs =>
    if c = ',' then readArgs (.next done) cs
    else if c = ')' then .ok (done, cs)
    else notRead
  | .next done, '"' :: cs => readArgs (.lit 0 done []) cs
  | _, _ => notRead

/-- A Python call `f("..","..",..)` at the beginning of a text, and the text after it. -/
def readCall (s : Str) : Except PyExc ((Str × List Str) × Str) :=
  match s.dropWhile (· ≠ '(') with
  | _ :: rest => match readArgs .start rest with
    | .ok (args, rest) => .ok ((s.takeWhile (· ≠ '('), args), rest)
    | .error e => .error e
  | [] => notRead

/-- The functions that generated commands call (the same names are defined in the generated script, L1753-1797). A
fourth argument of `envvar_op` would have to be a boolean (L176-177). -/
def callPython (sys : Sys) : Str × List Str → M Environ Int
  | (f, args) =>
    if f = py!"envvar_op" then
      match args with
      | [op, name] => envvarOp sys op name [] true
      | [op, name, value] => envvarOp sys op name value true
      | _ => M.raise .typeError
    else if f = py!"ModuleHelper.module" then sys.module args
    else M.raise (.user py!"NameError")

/-- Run a generated Python command (L1195-1210 `_exec_helper`): a text that is no program raises before anything is
done. -/
def execPython (sys : Sys) (cmd : Str) : M Environ Int :=
  match readCall cmd with
  | .ok (call, []) => callPython sys call
  | .ok (_, _ :: _) => M.raise (.user py!"NotModelled")
  | .error e => M.raise e

/-! ### apply and scripts -/

/-- An object together with the environment of the process and the files it writes. -/
structure State where
  obj : Obj Shared Actions
  environ : Environ
  files : Dict Str Str

/-- Run code of the object. -/
def onObj {α : Type} (m : M (Obj Shared Actions) α) : M State α := fun s =>
  ((m s.obj).1, { s with obj := (m s.obj).2 })

/-- Run code on the environment. -/
def onEnv {α : Type} (m : M Environ α) : M State α := fun s =>
  ((m s.environ).1, { s with environ := (m s.environ).2 })

/-- `try: m except KeyError: ...` (L323-327; the logged message is not modelled). -/
def ignoreKeyError {W α : Type} (m : M W α) : M W Unit := fun w =>
  match m w with
  | (.ok _, w') => (.ok (), w')
  | (.exc .keyError, w') => (.ok (), w')
  | (.exc e, w') => (.exc e, w')
  | (.diverge, w') => (.diverge, w')

section
variable (sys : Sys) (E : Env Shared Actions) (fuel : Nat)

/-- L1105-1150 `_apply_envvar`. -/
def applyEnvvar (op name : Str) (value : Option Str) : M State Int := do
  let cmd ← onObj (liftW (genEnvvar E op name value py!"python"))
  let out ← onEnv (execPython sys cmd)
  if out ≠ 0 then do
    onObj (liftW (ecEvent E .critical .runtimeError))
    pure 1
  else pure out

/-- L1152-1193 `_apply_module`. -/
def applyModule (op : Str) (name value : Option Str) : M State Int := do
  let cmd ← onObj (liftW (genModule E op name value py!"python"))
  let out ← onEnv (execPython sys cmd)
  if out ≠ 0 then
    onObj (liftW (ecEvent E .critical .runtimeError))
  pure out

/-- One turn of the loop of `apply` (L329-340). -/
def applyAction : Action → M State Int
  | .envvar op name value => applyEnvvar sys E op name value
  | .module op name value => applyModule sys E op name value

/-- The loop of `apply` (L329-342): the largest return value. -/
def applyLoop : List Action → Int → M State Int
  | [], out => pure out
  | a :: as, out => do
    let r ← applyAction sys E a
    applyLoop as (max out r)

/-- `self.actions[section]` (L329, L641). -/
def actionsOf (s : Str) : M State (List Action) := do
  let st ← M.read
  match Dict.get? st.obj.self s with
  | some l => pure l
  | none => M.raise .keyError

/-- L303-342 `apply(section)`. -/
def apply (s : Str) : M State Int := do
  onObj (ignoreKeyError (edGetItem E fuel s))
  let l ← actionsOf s
  applyLoop sys E l 0

/-- L1799-1814 `_gen_shebang_line`, for the two interpreters. -/
def shebang (interp : Str) : Str :=
  py!"#!/usr/bin/env " ++ (if interp = py!"bash" then py!"bash" else py!"python3") ++ py!"\n"

/-- L626-634: the comment before the commands. -/
def bodyHeader : Str :=
  py!"# -------------------------------------------------\n" ++
  py!"#   S E T E N V I R O N M E N T   C O M M A N D S\n" ++
  py!"# -------------------------------------------------\n"

/-- The loop of L640-660: one line per action. -/
def bodyLines (interp : Str) : List Action → M (World Shared Actions) Str
  | [] => pure []
  | a :: as => do
    let cmd ← genAction E interp a
    let rest ← bodyLines interp as
    pure (cmd ++ py!"\n" ++ rest)

/-- L565-664 `generate_actions_script(section, incl_hdr, incl_body, incl_shebang, interp)`. -/
def generateScript (s : Str) (hdr body sheb : Bool) (interp : Str) : M State Str := do
  if interp ≠ py!"bash" ∧ interp ≠ py!"python" then do
    onObj (liftW (ecEvent E .serious .valueError))
    pure []
  else do
    let top :=
      if hdr = true then
        (if sheb = true then shebang interp else []) ++
          (if interp = py!"bash" then sys.bashHeader else sys.pythonHeader) ++ py!"\n\n"
      else []
    if body = true then do
      let top := if sheb = true ∧ hdr = false then top ++ shebang interp else top
      let st ← M.read
      if Dict.mem st.obj.self s = false then do
        let _ ← onObj (parseSection E fuel s true true)
      let l ← actionsOf s
      let lines ← onObj (liftW (bodyLines E interp l))
      pure (top ++ bodyHeader ++ lines ++ py!"\n\n")
    else pure top

/-- L499-563 `write_actions_to_file` (opening the file for writing succeeds). -/
def writeScript (file s : Str) (hdr body sheb : Bool) (interp : Str) : M State Int := do
  if interp ≠ py!"bash" ∧ interp ≠ py!"python" then do
    onObj (liftW (ecEvent E .serious .valueError))
    pure 1
  else do
    let text ← generateScript sys E fuel s hdr body sheb interp
    M.modify fun st => { st with files := Dict.set st.files file text }
    pure 0

end

/-- What a client can do with an object: the operations of the base class, and those of this one. -/
inductive Op where
  | ed (op : EdOp)
  | apply (s : Str)
  | script (s : Str) (hdr body sheb : Bool) (interp : Str)
  | write (file s : Str) (hdr body sheb : Bool) (interp : Str)
  deriving DecidableEq

/-- What an operation returns. -/
inductive Val where
  | ed (v : EdVal Shared)
  | int (i : Int)
  | str (t : Str)
  deriving DecidableEq

/-- One operation of a client. -/
def Op.exec (sys : Sys) (E : Env Shared Actions) (fuel : Nat) : Op → M State Val
  | .ed op => do let v ← onObj (op.exec E fuel); pure (.ed v)
  | .apply s => do let i ← SetEnv.apply sys E fuel s; pure (.int i)
  | .script s hdr body sheb interp => do let t ← generateScript sys E fuel s hdr body sheb interp; pure (.str t)
  | .write file s hdr body sheb interp => do let i ← writeScript sys E fuel file s hdr body sheb interp; pure (.int i)

/-- A history: operations one after the other, the client catching exceptions. -/
def Op.run (sys : Sys) (E : Env Shared Actions) (fuel : Nat) : List Op → State → State
  | [], st => st
  | op :: ops, st => Op.run sys E fuel ops (op.exec sys E fuel st).2

/-- A new object in an environment. -/
def State.fresh (E : Env Shared Actions) (environ : Environ) (files : Dict Str Str) : State :=
  { obj := Obj.fresh E [], environ := environ, files := files }

/-- The lines of a text (line ends dropped). -/
def lines (s : Str) : List Str := splitChar '\n' s

/-- Read the body of a generated Python script: comment lines and empty lines, and calls. The number bounds the statements. -/
def readProgram : Nat → Str → Except PyExc (List (Str × List Str))
  | _, [] => .ok []
  | 0, _ :: _ => notRead
  | k + 1, c :: cs =>
    if c = '\n' then readProgram k cs
    else if c = '#' then readProgram k (cs.dropWhile (· ≠ '\n'))
    else match readCall (c :: cs) with
      | .error e => .error e
      | .ok (call, rest) =>
        if rest.head? = some '\n' then (call :: ·) <$> readProgram k rest
        else notRead

/-- Run calls one after the other; the first exception ends the script. -/
def runCalls (sys : Sys) : List (Str × List Str) → M Environ Unit
  | [] => pure ()
  | c :: cs => do
    let _ ← callPython sys c
    runCalls sys cs

/-- Run a script without header: Python reads all of it before anything is done. -/
def runScript (sys : Sys) (text : Str) : M Environ Unit :=
  match readProgram text.length text with
  | .ok calls => runCalls sys calls
  | .error e => M.raise e

end CPE.SetEnv
