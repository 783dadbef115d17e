import Verif.Model.SetEnvironment
/-
Model of the two functions `module` of wip/setenvironment/src/setenvironment/ModuleHelper.py (line numbers refer to it):
the one for `modulecmd` (L177-315) and the one for LMOD (L55-172). Console output is not modelled. `exec(output)` leaves
`_mlstatus` in `locals()`, which is so up to Python 3.12.
-/
namespace CPE.MH
open CPE CPE.SetEnv

/-- What a process leaves: its output, its error output (both decoded), and its exit status. -/
structure Proc where
  out : Str
  err : Str
  code : Int
  deriving DecidableEq

/-- What the functions ask of their surroundings:
`finder`: `distutils.spawn.find_executable("modulecmd")` (none also if distutils is not there);
`which`: `shutil.which`;
`typeModule`: the output of the shell command `type module` (none if that raises);
`popen`: a process, run to its end, or the exception of starting it or of decoding what it has printed;
`exec`: Python code that a process has printed, run on the environment, and afterwards the variable `_mlstatus` (none if
not set; `some false` if equal to False);
`lmod`: `env_modules_python.module`, with what it prints on its output and error output;
`system`: the status of a shell command. -/
structure Host where
  finder : Environ → Option Str
  which : Environ → Str → Option Str
  typeModule : Environ → Option Str
  popen : List Str → Environ → Out Proc
  exec : Str → M Environ (Option Bool)
  lmod : List Str → M Environ (Str × Str)
  system : Str → Environ → Int

/-- FileNotFoundError. -/
def fileNotFound : PyExc := .user py!"FileNotFoundError"

/-- NameError. -/
def nameError : PyExc := .user py!"NameError"

/-- The loop of `str.split()`: `cur` is the word being read. -/
def splitGo (cur : Str) : Str → List Str
  | [] => if cur = [] then [] else [cur]
  | c :: cs =>
    if isSpace c = true then (if cur = [] then splitGo [] cs else cur :: splitGo [] cs)
    else splitGo (cur ++ [c]) cs

/-- `str.split()` (L246). -/
def splitSpace (s : Str) : List Str := splitGo [] s

/-- L222: the expression ``eval `(\S*) bash.*`` at the start of a text: what its group matches. -/
def evalAt (s : Str) : Option Str :=
  match List.isPrefixOf? py!"eval `" s with
  | none => none
  | some r => if py!" bash".isPrefixOf (r.dropWhile fun c => !isSpace c) = true then some (r.takeWhile fun c => !isSpace c) else none

/-- The first match in a line; the expression takes the rest of the line. -/
def evalIn : Str → Option Str
  | [] => none
  | c :: cs =>
    match evalAt (c :: cs) with
    | some g => some g
    | none => evalIn cs

/-- L222: `re.findall`. -/
def evalAll (text : Str) : List Str := (splitChar '\n' text).filterMap evalIn

section
variable (H : Host)

/-- L209-236: the path in the definition of the shell function `module`. Every exception is a FileNotFoundError. -/
def fromFunction (env : Environ) : Except PyExc Str :=
  match H.typeModule env with
  | none => .error fileNotFound
  | some text =>
    match evalAll text with
    | [p] => if (H.which env p).isSome = true then .ok p else .error fileNotFound
    | _ => .error fileNotFound

/-- L196-236: the path of `modulecmd`. -/
def locate (env : Environ) : Except PyExc Str :=
  match H.finder env with
  | some p => .ok p
  | none =>
    match H.which env py!"modulecmd" with
    | some p => .ok p
    | none => fromFunction H env

/-- L238-248: the arguments: a single one is split. -/
def argWords (arguments : List Str) : List Str :=
  match arguments with
  | [a] => splitSpace a
  | as => as

/-- L277-286: the commands that modulecmd has printed are executed. -/
def runOutput (out : Str) : M Environ Int := do
  let ml ← H.exec out
  if ml = some false then pure 1 else pure 0

/-- L256-315. The exit status of a process that has ended is a number, so L312 is not modelled. -/
def finish (p : Proc) : M Environ Int :=
  if isSubstr py!"ERROR:" p.err = true then pure 1
  else if p.code ≠ 0 then pure p.code
  else runOutput H p.out

/-- L177-315 `module(command, *arguments)`; `command` is a list of words (a str is a list with one word). -/
def module (command arguments : List Str) : M Environ Int := fun env =>
  match locate H env with
  | .error e => (.exc e, env)
  | .ok cmd =>
    match H.popen (cmd :: py!"python" :: command ++ argWords arguments) env with
    | .exc e => (.exc e, env)
    | .diverge => (.diverge, env)
    | .ok p => finish H p env

/-! ### LMOD -/

/-- L137: the check that a module is loaded. -/
def isLoaded (m : Str) : Str := py!"module is-loaded " ++ m ++ py!" && true  || false"

/-- L138: the check that a module is not loaded. -/
def isUnloaded (m : Str) : Str := py!"module is-loaded " ++ m ++ py!" && false || true"

/-- L139: the check that a file exists. -/
def isFile (m : Str) : Str := py!"[ -e " ++ m ++ py!" ] && true || false"

/-- L141-149: the checks after a command; IndexError if a needed argument is not there. -/
def checksFor (c : Str) (args : List Str) : Except PyExc (List Str) :=
  if c = py!"load" then
    match args with
    | m :: _ => .ok [isLoaded m]
    | [] => .error .indexError
  else if c = py!"unload" then
    match args with
    | m :: _ => .ok [isUnloaded m]
    | [] => .error .indexError
  else if c = py!"swap" then
    match args with
    | m :: m' :: _ => .ok [isUnloaded m, isLoaded m']
    | _ => .error .indexError
  else if c = py!"use" then
    match args with
    | m :: _ => .ok [isFile m]
    | [] => .error .indexError
  else .ok []

/-- L135-149: the first word of the command, and the others with the arguments. -/
def checks (command arguments : List Str) : Except PyExc (List Str) :=
  match command with
  | [] => .error .indexError
  | c :: more => checksFor c (more ++ arguments)

/-- L154-162: the status of the first check that fails. -/
def runChecks (env : Environ) : List Str → Int
  | [] => 0
  | c :: cs => if H.system c env ≠ 0 then H.system c env else runChecks env cs

/-- `stderr.lower()`, as far as it matters for the search of L131: no character outside ASCII has one of the characters
of `error:` in its lower case form. -/
def asciiLower (s : Str) : Str := s.map fun c => if 'A' ≤ c ∧ c ≤ 'Z' then Char.ofNat (c.toNat + 32) else c

/-- L129-172: the status, after the command has been run. -/
def lmodStatus (command arguments : List Str) (err : Str) : M Environ Int := fun env =>
  match checks command arguments with
  | .error e => (.exc e, env)
  | .ok cs =>
    if isSubstr py!"error:" (asciiLower err) = true then (.ok 1, env)
    else (.ok (runChecks H env cs), env)

/-- L93-121: the command is run; a NameError becomes a RuntimeError. -/
def lmodRun (words : List Str) : M Environ (Str × Str) := fun env =>
  match H.lmod words env with
  | (.exc e, env') => (.exc (if e = nameError then .runtimeError else e), env')
  | r => r

/-- L55-172 `module(command, *arguments)` for LMOD. -/
def moduleLmod (command arguments : List Str) : M Environ Int := fun env =>
  match Dict.get? env py!"LMOD_CMD" with
  | none => (.exc .typeError, env)
  | some [] => (.exc fileNotFound, env)
  | some _ => (lmodRun H (command ++ arguments) >>= fun r => lmodStatus H command arguments r.2) env

/-- `ModuleHelper.module(*args)` as SetEnvironment calls it (SetEnvironment.py L1597); without LMOD. -/
def call : List Str → M Environ Int
  | [] => M.raise .typeError
  | c :: args => module H [c] args

/-- The same with LMOD. -/
def callLmod : List Str → M Environ Int
  | [] => M.raise .typeError
  | c :: args => moduleLmod H [c] args

end
end CPE.MH
