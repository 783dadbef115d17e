import Verif.Model.SetEnvironment
/-
Model of the generated Bash scripts: the functions of the script header (SetEnvironment.py L1609-1751,
`_gen_script_header_bash`), written here function by function, and the part of Bash's grammar that the generated
commands use (L1484-1487, L1598-1599). Line numbers refer to SetEnvironment.py. Bash itself is modelled from its
manual: dynamic scope of `local`, `${x:?}`, `${!x}`, `${x//p/r}`, `${x#p}`, `${x%p}`, `export`, `unset`, `exit`,
double quotes. What this part of Bash does not settle (word splitting, file name patterns, command substitution in a
value, names that are no identifiers, sed expressions that are more than a literal text) is `NotModelled`, an exception
that Bash does not have. Variables with a meaning of their own in Bash (IFS, RANDOM, UID, ...) are not modelled, nor are
variables that exist in the shell without being exported.
-/
namespace CPE.SetEnv.Bash

/-- The state of the shell: the local variables of the functions that are being called (innermost first), and the
exported variables. -/
structure Shell where
  frames : List (Dict Str Str)
  environ : Environ

/-- What is outside this model. -/
def notModelled {W α : Type} : M W α := M.raise (.user py!"NotModelled")

/-- `exit 1`, and what `${x:?}` does when `x` is empty or not set. -/
def exit {W α : Type} : M W α := M.raise (.user py!"exit")

/-- `${x:?}`. -/
def need (x : Str) : M Shell Unit := if x = [] then exit else pure ()

/-- The value of variable `x`: the innermost local variable of that name, else the exported one. -/
def getIn : List (Dict Str Str) → Environ → Str → Option Str
  | [], env, x => Dict.get? env x
  | f :: fs, env, x =>
    match Dict.get? f x with
    | some v => some v
    | none => getIn fs env x

/-- Change variable `x` where it is: in the innermost function that has it as a local variable, else among the
exported variables. -/
def changeIn (g : Dict Str Str → Dict Str Str) (x : Str) : List (Dict Str Str) → Environ → List (Dict Str Str) × Environ
  | [], env => ([], g env)
  | f :: fs, env =>
    if Dict.mem f x = true then (g f :: fs, env)
    else (f :: (changeIn g x fs env).1, (changeIn g x fs env).2)

/-- `${!x}` and `${!x+1}`: the value of the variable whose name is `x`. -/
def lookup (x : Str) : M Shell (Option Str) := do
  let sh ← M.read
  pure (getIn sh.frames sh.environ x)

/-- `export x=v`. -/
def export_ (x v : Str) : M Shell Unit :=
  M.modify fun sh =>
    let r := changeIn (fun d => Dict.set d x v) x sh.frames sh.environ
    { frames := r.1, environ := r.2 }

/-- `unset x` (functions of that name are not modelled). -/
def unset (x : Str) : M Shell Unit :=
  M.modify fun sh =>
    let r := changeIn (fun d => dictDel d x) x sh.frames sh.environ
    { frames := r.1, environ := r.2 }

/-- `local x=v`. -/
def local_ (x v : Str) : M Shell Unit :=
  M.modify fun sh =>
    match sh.frames with
    | [] => sh
    | f :: fs => { sh with frames := Dict.set f x v :: fs }

/-- The call of a function: its local variables end with it. -/
def call (body : M Shell Unit) : M Shell Unit := fun sh =>
  ((body { sh with frames := [] :: sh.frames }).1,
    { (body { sh with frames := [] :: sh.frames }).2 with
      frames := (body { sh with frames := [] :: sh.frames }).2.frames.tail })

/-- A text that an unquoted expansion leaves as it is: no white space, no pattern characters, no backslash. -/
def unquotedSafe (s : Str) : Bool :=
  s.all fun c => !(c == ' ' || c == '\t' || c == '\n' || c == '*' || c == '?' || c == '[' || c == '\\')

/-- A text that stands for itself in a pattern. -/
def patternSafe (s : Str) : Bool :=
  s.all fun c => !(c == '*' || c == '?' || c == '[' || c == '\\')

/-- A text that stands for itself in a basic regular expression given to sed as an unquoted word. -/
def sedSafe (s : Str) : Bool :=
  unquotedSafe s && s.all fun c => !(c == '.' || c == ']' || c == '^' || c == '$')

/-- The loop that replaces the occurrences of a literal text from left to right; the number counts characters still
to be skipped. -/
def replaceGo (pat rep : Str) : Nat → Str → Str
  | _, [] => []
  | k + 1, _ :: cs => replaceGo pat rep k cs
  | 0, c :: cs =>
    if pat.isPrefixOf (c :: cs) then rep ++ replaceGo pat rep (pat.length - 1) cs else c :: replaceGo pat rep 0 cs

/-- `${x#p}` for a literal text. -/
def dropPrefix (p s : Str) : Str := if p.isPrefixOf s then s.drop p.length else s

/-- `${x%p}` for a literal text. -/
def dropSuffix (p s : Str) : Str := (dropPrefix p.reverse s.reverse).reverse

/-- L1630-1636 `envvar_append_or_create`. -/
def envvarAppend (a1 a2 : Str) : M Shell Unit := call do
  match ← lookup a1 with
  | none => export_ a1 a2
  | some v => export_ a1 (v ++ py!":" ++ a2)

/-- L1641-1652 `envvar_assert_not_empty` (the message is not modelled). -/
def envvarAssertNotEmpty (a1 a2 : Str) : M Shell Unit := call do
  local_ py!"envvar" a1
  local_ py!"message" a2
  let v ← lookup a1
  if v = none ∨ v = some [] then exit

/-- L1657-1663 `envvar_prepend_or_create`. -/
def envvarPrepend (a1 a2 : Str) : M Shell Unit := call do
  match ← lookup a1 with
  | none => export_ a1 a2
  | some v => export_ a1 (a2 ++ py!":" ++ v)

/-- L1668-1670 `envvar_set_or_create`. -/
def envvarSetOrCreate (a1 a2 : Str) : M Shell Unit := call do
  need a1
  export_ a1 a2

/-- L1675-1681 `envvar_set_if_empty`. -/
def envvarSetIfEmpty (a1 a2 : Str) : M Shell Unit := call do
  need a1
  local_ py!"ENVVAR_NAME" a1
  local_ py!"ENVVAR_VALUE" a2
  let v ← lookup a1
  if v = none ∨ v = some [] then export_ a1 a2

/-- L1686-1698 `envvar_remove_substr`. -/
def envvarRemoveSubstr (a1 a2 : Str) : M Shell Unit := call do
  need a1
  local_ py!"envvar" a1
  need a2
  local_ py!"substr" a2
  if '#' ∈ a2 then pure ()
  else do
    let v ← lookup a1
    let old := v.getD []
    if unquotedSafe old = true ∧ old.head? ≠ some '-' ∧ sedSafe a2 = true then
      export_ a1 (replaceGo a2 [] 0 old)
    else notModelled

/-- L1703-1717 `envvar_remove_path_entry`. -/
def envvarRemovePathEntry (a1 a2 : Str) : M Shell Unit := call do
  need a1
  local_ py!"envvar" a1
  need a2
  local_ py!"to_remove" a2
  let v ← lookup a1
  let v := v.getD []
  local_ py!"new_value" v
  if patternSafe a2 = true then do
    let v := py!":" ++ v ++ py!":"
    let v := replaceGo (py!":" ++ a2 ++ py!":") py!":" 0 v
    let v := dropPrefix py!":1" v
    let v := dropSuffix py!":1" v
    local_ py!"new_value" v
    if unquotedSafe v = true then export_ a1 v else notModelled
  else notModelled

/-- A name of a variable in Bash. -/
def isIdent : Str → Bool
  | [] => false
  | c :: cs => isAsciiWord c && !('0' ≤ c && c ≤ '9') && cs.all isAsciiWord

/-- The text that `$(...)` takes from an output: without the line ends at its end. -/
def dropLineEnds (s : Str) : Str := (s.reverse.dropWhile (· == '\n')).reverse

/-- What the shell does not do itself: the program `which`, and the function `module`. -/
structure Tools where
  which : Environ → Str → Option Str
  module : List Str → Environ → Environ

/-- L1723-1748 `envvar_op`. -/
def envvarOp (tools : Tools) (args : List Str) : M Shell Unit := call do
  let op := (args[0]?).getD []
  let arg1 := (args[1]?).getD []
  let arg2 := (args[2]?).getD []
  need op
  local_ py!"op" op
  need arg1
  local_ py!"arg1" arg1
  local_ py!"arg2" arg2
  if isIdent arg1 = false then notModelled
  else if op = py!"set" then envvarSetOrCreate arg1 arg2
  else if op = py!"unset" then unset arg1
  else if op = py!"append" then do
    need arg2
    envvarAppend arg1 arg2
  else if op = py!"prepend" then do
    need arg2
    envvarPrepend arg1 arg2
  else if op = py!"remove_substr" then do
    need arg2
    envvarRemoveSubstr arg1 arg2
  else if op = py!"remove_path_entry" then do
    need arg2
    envvarRemovePathEntry arg1 arg2
  else if op = py!"find_in_path" then do
    need arg2
    if unquotedSafe arg2 = true ∧ arg2.head? ≠ some '-' then do
      let sh ← M.read
      envvarSetOrCreate arg1 (dropLineEnds ((tools.which sh.environ arg2).getD []))
    else notModelled
  else if op = py!"assert_not_empty" then envvarAssertNotEmpty arg1 arg2
  else if op = py!"set_if_empty" then envvarSetIfEmpty arg1 arg2
  else pure ()

/-! ### Reading a command -/

/-- A character that stands for itself in an unquoted word. -/
def bareChar (c : Char) : Bool :=
  isAsciiWord c || c == '-' || c == '+' || c == '.' || c == ',' || c == ':' || c == '/' || c == '@' || c == '%' || c == '='

/-- A word of a command: quoted or not, and its text. -/
structure Word where
  quoted : Bool
  text : Str
  deriving DecidableEq

/-- Where the reader of a command is. -/
inductive WordState where
  | gap (done : List Word)
  | bare (done : List Word) (cur : Str)
  | quot (done : List Word) (cur : Str)
  | escape (done : List Word) (cur : Str)
  | after (done : List Word)

/-- The words of a command: bare words and words in double quotes, separated by spaces. A quote after a backslash does
not end a word; the texts of the words still have their backslashes. -/
def readWords : WordState → Str → Option (List Word)
  | .gap done, [] => some done
  | .bare done cur, [] => some (done ++ [⟨false, cur⟩])
  | .quot _ _, [] => none
  | .escape _ _, [] => none
  | .after done, [] => some done
  | .gap done, c :: cs =>
    if c = ' ' then readWords (.gap done) cs
    else if c = '"' then readWords (.quot done []) cs
    else if bareChar c = true then readWords (.bare done [c]) cs
    else none
  | .bare done cur, c :: cs =>
    if c = ' ' then readWords (.gap (done ++ [⟨false, cur⟩])) cs
    else if bareChar c = true then readWords (.bare done (cur ++ [c])) cs
    else none
  | .quot done cur, c :: cs =>
    if c = '"' then readWords (.after (done ++ [⟨true, cur⟩])) cs
    else if c = '\\' then readWords (.escape done (cur ++ [c])) cs
    else if c = '`' ∨ c = Char.ofNat 0 then none
    else readWords (.quot done (cur ++ [c])) cs
  | .escape done cur, c :: cs => if c = Char.ofNat 0 then none else readWords (.quot done (cur ++ [c])) cs
  | .after done, c :: cs => if c = ' ' then readWords (.gap done) cs else none

/-- A character after `$` that makes Bash look for something other than a name. -/
def dollarChar (c : Char) : Bool :=
  c == '$' || c == '?' || c == '!' || c == '-' || c == '*' || c == '@' || c == '#' || c == '(' || c == '[' ||
    c == '\'' || c == '"' || c == '{' || ('0' ≤ c && c ≤ '9')

/-- What follows a `$`: the name of a variable and the number of characters read, or the `$` stands for itself
(`some none`); `none`: not modelled. -/
def readRef : Str → Option (Option (Str × Nat))
  | [] => some none
  | c :: cs =>
    if c = '{' then
      if '}' ∈ cs ∧ isIdent (cs.takeWhile (· ≠ '}')) = true then
        some (some (cs.takeWhile (· ≠ '}'), (cs.takeWhile (· ≠ '}')).length + 2))
      else none
    else if dollarChar c = true then none
    else
      let name := (c :: cs).takeWhile isAsciiWord
      if name = [] then some none else some (some (name, name.length))

/-- The character that a backslash in double quotes takes its meaning from, if it is one of those that have one. -/
def escapable : Str → Option Char
  | [] => none
  | c :: _ => if c = '$' ∨ c = '`' ∨ c = '"' ∨ c = '\\' then some c else none

/-- The text of a word in double quotes: `$NAME` and `${NAME}` are replaced by the value of the variable, or by nothing
if it is not set; a backslash is dropped before `$`, a backquote, a double quote and a backslash, and stays elsewhere
(commands have no line end in them). The number counts characters still to be skipped. -/
def expandGo (env : Environ) : Nat → Str → Option Str
  | _, [] => some []
  | k + 1, _ :: cs => expandGo env k cs
  | 0, c :: cs =>
    if c = '$' then
      match readRef cs with
      | none => none
      | some none => (expandGo env 0 cs).map (c :: ·)
      | some (some (name, len)) => (expandGo env len cs).map ((Dict.get? env name).getD [] ++ ·)
    else if c = '\\' then
      match escapable cs with
      | some d => (expandGo env 1 cs).map (d :: ·)
      | none => (expandGo env 0 cs).map (c :: ·)
    else (expandGo env 0 cs).map (c :: ·)

/-- The arguments that a list of words gives. -/
def expandWords (env : Environ) : List Word → Option (List Str)
  | [] => some []
  | w :: ws =>
    match (if w.quoted = true then expandGo env 0 w.text else some w.text), expandWords env ws with
    | some x, some xs => some (x :: xs)
    | _, _ => none

/-- `export NAME=text` with one argument (wip/loadenv/load_env.py:277). -/
def exportWord (args : List Str) : M Environ Unit := fun env =>
  match args with
  | [w] =>
    if isIdent (w.takeWhile (· ≠ '=')) = true ∧ '=' ∈ w then
      (.ok (), Dict.set env (w.takeWhile (· ≠ '=')) ((w.dropWhile (· ≠ '=')).drop 1))
    else notModelled env
  | _ => notModelled env

/-- Run one command of a generated script. The status of the command is not looked at (L1599-1601). -/
def exec (tools : Tools) (cmd : Str) : M Environ Unit := fun env =>
  match readWords (.gap []) cmd with
  | none => notModelled env
  | some ws =>
    match expandWords env ws with
    | some (f :: args) =>
      if f = py!"envvar_op" then
        let r := envvarOp tools args { frames := [], environ := env }
        (r.1, r.2.environ)
      else if f = py!"module" then (.ok (), tools.module args env)
      else if f = py!"export" then exportWord args env
      else notModelled env
    | _ => notModelled env

/-- Run the body of a generated Bash script: comment lines and empty lines do nothing, the others are commands. -/
def runLines (tools : Tools) : List Str → M Environ Unit
  | [] => pure ()
  | l :: ls => do
    if l = [] ∨ l.head? = some '#' then pure ()
    else exec tools l
    runLines tools ls

/-- Run a script, with the functions of the header defined. -/
def runScript (tools : Tools) (text : Str) : M Environ Unit := runLines tools (lines text)

end CPE.SetEnv.Bash
