import Verif.Model.LoadEnv
import Verif.Model.GenOutput
/-
Model of the two scripts that users source:
  wip/loadenv/load-env.sh        (cited as SH)
  wip/genconfig/gen-config.sh    (cited as GSH)

A script is a function of the shell that sources it, to the status it returns and the shell afterwards. `exit` ends the
shell. Programs are arbitrary functions of their words, their environment and the files. The scripts leave most of their
expansions unquoted, and that is modelled: the value is split at blanks, tabs and line ends; a value with a character that
stands for file names (`*`, `?`, `[`) is `NotModelled`, and so is a test or a redirection that gets several words. Not
modelled: signals and the traps for them, output, variables that the shell treats apart (IFS, RANDOM, ...), failures to
write or remove a file. The variable `ret` is kept apart, as a number.
-/
namespace CPE.KW.Script
open CPE CPE.SetEnv

/-- A program that has been started: its words, its environment, and whether the exported function `gen_config_helper` is
part of that environment. -/
structure Started where
  argv : List Str
  environ : Environ
  helper : Bool

/-- The shell: the exported variables, the others, `ret`, whether the function `gen_config_helper` is defined (and
exported), the regular files, and the programs that have been started. -/
structure Shell where
  environ : Environ
  vars : Dict Str Str
  ret : Option Nat
  helper : Bool
  files : Dict Str Str
  started : List Started

/-- What the scripts depend on: whether they are sourced, the directories they are in, the directories there are, the
Python that is found (and whether it is older than 3.6), what a program does (its status, and the files afterwards), what
sourcing a text does, and the number that `$RANDOM` gives. -/
structure Machine where
  sourced : Bool
  loadDir : Str
  genDir : Str
  isDir : Str → Bool
  python : Environ → Option Bool
  run : List Str → Environ → Dict Str Str → Nat × Dict Str Str
  load : Str → M Environ Unit
  random : Str

/-! ### The shell -/

/-- `$x`, if the variable is set. -/
def Shell.find (s : Shell) (x : Str) : Option Str :=
  match Dict.get? s.environ x with
  | some v => some v
  | none => Dict.get? s.vars x

/-- `$x`. -/
def Shell.get (s : Shell) (x : Str) : Str := (s.find x).getD []

/-- `x=v`. -/
def Shell.assign (x v : Str) (s : Shell) : Shell :=
  if (Dict.get? s.environ x).isSome = true then { s with environ := Dict.set s.environ x v }
  else { s with vars := Dict.set s.vars x v }

/-- `export x=v`. -/
def Shell.export (x v : Str) (s : Shell) : Shell :=
  { s with environ := Dict.set s.environ x v, vars := dictDel s.vars x }

/-- `unset x ...` for variables. -/
def Shell.unset (xs : List Str) (s : Shell) : Shell :=
  xs.foldl (fun s x => { s with environ := dictDel s.environ x, vars := dictDel s.vars x }) s

/-- The characters at which an unquoted value is split (the default of IFS). -/
def isBlank (c : Char) : Bool := c == ' ' || c == '\t' || c == '\n'

/-- The loop that splits; `cur` is the word that is being read. -/
def splitBlanks (cur : Str) : Str → List Str
  | [] => if cur = [] then [] else [cur]
  | c :: cs =>
    if isBlank c = true then (if cur = [] then splitBlanks [] cs else cur :: splitBlanks [] cs)
    else splitBlanks (cur ++ [c]) cs

/-- A character that makes an unquoted word a pattern for file names. -/
def isPattern (c : Char) : Bool := c == '*' || c == '?' || c == '['

/-- An unquoted expansion: the words of a value. -/
def unquoted (v : Str) : M Shell (List Str) :=
  if v.any isPattern = true then Bash.notModelled else pure (splitBlanks [] v)

/-- `$@` without quotes. -/
def unquotedAll (args : List Str) : M Shell (List Str) :=
  if args.any (fun a => a.any isPattern) = true then Bash.notModelled else pure (args.flatMap (splitBlanks []))

/-- An unquoted expansion where one word is needed. -/
def oneWord (v : Str) : M Shell Str := do
  match ← unquoted v with
  | [w] => pure w
  | _ => Bash.notModelled

/-- `[ test v ]` with an unquoted value: without a word it is a test of the text `test`, which is not empty. -/
def unaryTest (p : Shell → Str → Bool) (v : Str) : M Shell Bool := do
  let s ← M.read
  match ← unquoted v with
  | [] => pure true
  | [w] => pure (p s w)
  | _ => Bash.notModelled

/-- `-f`. -/
def isFile (s : Shell) (w : Str) : Bool := (Dict.get? s.files w).isSome

/-- `[ ! -z v ]` with an unquoted value: without a word it is false. -/
def notEmptyTest (v : Str) : M Shell Bool := do
  match ← unquoted v with
  | [] => pure false
  | [_] => pure true
  | _ => Bash.notModelled

/-- `rm -f` of words. A word that starts with `-` would be an option. -/
def remove (ws : List Str) : M Shell Unit :=
  if ws.any (fun w => w.head? == some '-') = true then Bash.notModelled
  else M.modify fun s => { s with files := ws.foldl dictDel s.files }

/-- `[ -f v ] && rm -f v`. -/
def removeFile (v : Str) : M Shell Unit := do
  let b ← unaryTest isFile v
  if b = true then do
    let ws ← unquoted v
    remove ws
  else pure ()

/-- `/tmp/$USER/name`. -/
def tmpFile (s : Shell) (name : Str) : Str := py!"/tmp/" ++ s.get py!"USER" ++ py!"/" ++ name

/-- `$(cat v)` with an unquoted value. -/
def cat (v : Str) : M Shell Str := do
  let w ← oneWord v
  let s ← M.read
  pure (Bash.dropLineEnds ((Dict.get? s.files w).getD []))

/-- `v::-2`: a value without its last two characters. For a value that is shorter the expansion is an error. -/
def dropTwo (v : Str) : M Shell Str :=
  if v.length < 2 then Bash.notModelled else pure (v.take (v.length - 2))

section
variable (W : Machine)

/-- Start a program and wait for it. -/
def start (argv : List Str) : M Shell Nat := fun s =>
  let r := W.run argv s.environ s.files
  (.ok r.1, { s with files := r.2, started := s.started ++ [{ argv := argv, environ := s.environ, helper := s.helper }] })

/-- `python3 -E -s program words`. -/
def startPython (program : Str) (words : List Str) : M Shell Nat := do
  let ps ← unquoted program
  start W (py!"python3" :: py!"-E" :: py!"-s" :: (ps ++ words))

/-! ### load-env.sh -/

/-- SH:38, before the semicolon: `[ ! -z f ] && rm -f f`. -/
def removeGiven (f : Str) : M Shell Unit := do
  let b ← notEmptyTest f
  if b = true then do
    let ws ← unquoted f
    remove ws
  else pure ()

/-- SH:38: the two generated files are removed. Without a variable `env_file` there is nothing before the `rc`. -/
def removeGenerated (e : Option Str) : M Shell Unit :=
  match e with
  | none => remove [py!"rc"]
  | some f => do
    removeGiven f
    let p ← dropTwo f
    let ws ← unquoted (p ++ py!"rc")
    remove ws

/-- SH:33-43 `cleanup`: the status it returns is that of the Python program. -/
def cleanup : M Shell Nat := do
  let s ← M.read
  let ret := s.ret.getD 0
  removeFile (tmpFile s py!".load_matching_env_loc")
  removeFile (tmpFile s py!".ci_mode")
  removeGenerated (s.find py!"env_file")
  M.modify (Shell.unset [py!"python_too_old", py!"script_dir", py!"ci_mode", py!"env_file"])
  M.modify fun s => { s with ret := none }
  pure ret

/-- `cleanup; return n`. -/
def cleanupAnd (n : Nat) : M Shell Nat := do
  let _ ← cleanup
  pure n

/-- SH:103: the command that runs `gen_config_helper` if it is there. -/
def helperCommand : Str :=
  py!"declare -f -F gen_config_helper >/dev/null && [ $? -eq 0 ] && gen_config_helper || true"

/-- SH:106-110: the first lines of the file that is sourced; `echo` puts a line end after each. -/
def rcStart (f : Str) : List Str :=
  [py!"source " ++ f, py!"echo; echo; echo",
    py!"echo \"********************************************************************************\"",
    py!"echo \"           E N V I R O N M E N T  L O A D E D  S U C E S S F U L L Y\"",
    py!"echo \"********************************************************************************\""]

/-- SH:114-120: the other lines, for an interactive shell. -/
def rcInteractive : List Str :=
  [py!"echo; echo; echo",
    py!"echo \"********************************************************************************\"",
    py!"echo \"          T Y P E  \"exit\"  T O  L E A V E  T H E  E N V I R O N M E N T\"",
    py!"echo \"********************************************************************************\"",
    py!"export PS1=\"($LOADED_ENV_NAME) $ \"",
    py!"export LOAD_ENV_INTERACTIVE_MODE=\"True\"",
    helperCommand]

/-- Write lines to a file. -/
def writeLines (file : Str) (ls : List Str) : M Shell Unit :=
  M.modify fun s => { s with files := Dict.set s.files file (ls.flatMap fun l => l ++ py!"\n") }

/-- GSH:117-143 `gen_config_helper`. -/
def genConfigHelper : M Shell Unit := do
  let s ← M.read
  let f := s.get py!"cmake_args_file"
  if f ≠ [] ∧ isFile s f = true ∧ s.get py!"path_to_src" ≠ [] then do
    let t ← cat f
    M.modify (Shell.assign py!"cmake_args" t)
    let s ← M.read
    let a ← unquoted (s.get py!"cmake_args")
    let p ← unquoted (s.get py!"path_to_src")
    let _ ← start W (py!"cmake" :: (a ++ p))
  else pure ()

/-- Source the file with the commands for an environment: it works on the exported variables. -/
def loadText (text : Str) : M Shell Unit := fun s =>
  ((W.load text s.environ).1, { s with environ := (W.load text s.environ).2 })

/-- What the lines of the generated file do: `source` of a plain path (a file that is not there is only a message),
`echo`, `export x="..."`, and the command for `gen_config_helper`. -/
def rcLine (l : Str) : M Shell Unit :=
  match List.isPrefixOf? py!"source " l with
  | some f =>
    if f.all Bash.bareChar = true then do
      let s ← M.read
      match Dict.get? s.files f with
      | some t => loadText W t
      | none => pure ()
    else Bash.notModelled
  | none =>
    if py!"echo".isPrefixOf l = true then pure ()
    else if l = helperCommand then do
      let s ← M.read
      if s.helper = true then genConfigHelper W else pure ()
    else match List.isPrefixOf? py!"export " l with
      | none => Bash.notModelled
      | some d => do
        let s ← M.read
        let x := d.takeWhile (· ≠ '=')
        let v := (d.dropWhile (· ≠ '=')).drop 1
        if Bash.isIdent x = true ∧ v.head? = some '"' ∧ v.getLast? = some '"' then
          match Bash.expandGo s.environ 0 (v.drop 1).dropLast with
          | some t => M.modify (Shell.export x t)
          | none => Bash.notModelled
        else Bash.notModelled

/-- SH:97-133: the file that the Python program has written is sourced, in this shell or in a new one. -/
def enter (ci : Bool) : M Shell Nat := do
  let s ← M.read
  let here ← unaryTest isFile (s.get py!"load_matching_env_loc")
  if here = true then do
    let f ← cat (s.get py!"load_matching_env_loc")
    M.modify (Shell.assign py!"env_file" f)
    let p ← dropTwo f
    M.modify (Shell.assign py!"env_file_rc" (p ++ py!"rc"))
    M.modify (Shell.assign py!"run_gen_config_helper_cmd" helperCommand)
    let there ← unaryTest isFile f
    if there = true then do
      let rc ← oneWord (p ++ py!"rc")
      if ci = false then do
        writeLines rc (rcStart f ++ rcInteractive)
        let _ ← start W [py!"/bin/bash", py!"--init-file", rc, py!"-i"]
        cleanup
      else do
        writeLines rc (rcStart f ++ [helperCommand])
        M.forEach (rcStart f ++ [helperCommand]) (rcLine W)
        cleanup
    else cleanupAnd 1
  else cleanup

/-- SH:77-94: the Python program does the work. -/
def callLoadEnv (args : List Str) : M Shell Nat := do
  let loc := py!".load_matching_env_loc." ++ W.random
  M.modify (Shell.assign py!"load_matching_env_loc" loc)
  let s ← M.read
  let as ← unquotedAll args
  let ls ← unquoted loc
  let st ← startPython W (s.get py!"script_dir" ++ py!"/load_env.py") (py!"--load-matching-env-location" :: (ls ++ as))
  M.modify fun s => { s with ret := some st }
  if st ≠ 0 then cleanup
  else do
    let ci := isSubstr py!"--ci-mode" (joinStr py!" " args)
    M.modify (Shell.assign py!"ci_mode" (if ci = true then py!"1" else py!"0"))
    enter W ci

/-- SH:52-75, and what follows. -/
def loadEnvBody (args : List Str) : M Shell Nat := do
  let s ← M.read
  match W.python s.environ with
  | none => cleanupAnd 1
  | some old => do
    M.modify (Shell.assign py!"python_too_old" (if old = true then py!"True" else py!"False"))
    if old = true then cleanupAnd 1
    else do
      M.modify (Shell.assign py!"script_dir" W.loadDir)
      if args = [] then do
        let s ← M.read
        let _ ← startPython W (s.get py!"script_dir" ++ py!"/load_env.py") [py!"--help"]
        cleanupAnd 1
      else callLoadEnv W args

/-- load-env.sh. -/
def loadEnv (args : List Str) : M Shell Nat :=
  if W.sourced = false then Bash.exit
  else do
    let s ← M.read
    let loaded ← notEmptyTest (s.get py!"LOAD_ENV_INTERACTIVE_MODE")
    if loaded = true then pure 1 else loadEnvBody W args

/-! ### gen-config.sh -/

/-- GSH:35-44 `cleanup_gc`. -/
def cleanupGc : M Shell Nat := do
  let s ← M.read
  removeFile (tmpFile s py!".bash_cmake_args_loc")
  removeFile (tmpFile s py!".load_env_args")
  M.modify (Shell.unset [py!"python_too_old", py!"script_dir", py!"gen_config_py_call_args", py!"path_to_src",
    py!"load_env_call_args", py!"cmake_args_file"])
  M.modify fun s => { s with helper := false }
  pure 0

/-- `cleanup_gc; return n`. -/
def cleanupGcAnd (n : Nat) : M Shell Nat := do
  let _ ← cleanupGc
  pure n

/-- GSH:112-113: `export x=$(...)` and `export x`; a variable that is not set is not exported. -/
def exportForLoadEnv (f : Str) : M Shell Unit := do
  M.modify (Shell.export py!"cmake_args_file" f)
  M.modify fun s => match s.find py!"path_to_src" with
    | some v => Shell.export py!"path_to_src" v s
    | none => s

/-- GSH:102-159: the programs are run. After a failure the status returned is that of `cleanup_gc`. -/
def runGenConfig (args : List Str) (call : Str) : M Shell Nat := do
  let s ← M.read
  let dir := s.get py!"script_dir"
  M.modify (Shell.assign py!"gen_config_py_call_args" call)
  let ws ← unquoted call
  let st ← startPython W (dir ++ py!"/gen_config.py") ws
  if st ≠ 0 then cleanupGc
  else do
    let f ← cat (tmpFile s py!".bash_cmake_args_loc")
    exportForLoadEnv f
    M.modify fun s => { s with helper := true }
    let save ← unquoted (tmpFile s py!".load_env_args")
    let st ← startPython W (dir ++ py!"/gen_config.py") (ws ++ py!"--save-load-env-args" :: save)
    if st ≠ 0 then cleanupGc
    else do
      let a ← cat (tmpFile s py!".load_env_args")
      M.modify (Shell.assign py!"load_env_call_args" a)
      let as ← unquoted a
      -- `source` without arguments leaves the script the arguments that there are
      let _ ← loadEnv W (if as = [] then args else as)
      cleanupGc

/-- GSH:62-99: is the last argument a directory? -/
def configure (args : List Str) : M Shell Nat := do
  let last := (args.getLast?).getD []
  let d ← unaryTest (fun _ w => W.isDir w) last
  if d = true then do
    M.modify (Shell.assign py!"path_to_src" last)
    runGenConfig W args (joinStr py!" " args.dropLast)
  else if isSubstr py!"--cmake-fragment" (joinStr py!" " args) = false then cleanupGcAnd 1
  else runGenConfig W args (joinStr py!" " args)

/-- gen-config.sh. -/
def genConfig (args : List Str) : M Shell Nat :=
  if W.sourced = false then Bash.exit
  else do
    let s ← M.read
    match W.python s.environ with
    | none => do
      M.modify (Shell.unset [py!"python_too_old"])
      pure 1
    | some old => do
      M.modify (Shell.assign py!"python_too_old" (if old = true then py!"True" else py!"False"))
      if old = true then do
        M.modify (Shell.unset [py!"python_too_old"])
        pure 1
      else do
        M.modify (Shell.assign py!"script_dir" W.genDir)
        if args = [] ∨ isSubstr py!"--help" (joinStr py!" " args) = true then do
          let s ← M.read
          let _ ← startPython W (s.get py!"script_dir" ++ py!"/gen_config.py") [py!"--help"]
          cleanupGcAnd 1
        else configure W args

end
end CPE.KW.Script
