import Verif.Model.Scripts
import Verif.Spec.GenOutput
import Verif.Spec.LoadEnv
/-
What the scripts load-env.sh and gen-config.sh are expected to do (C65, C66).
-/
namespace CPE.KW.Spec
open CPE CPE.Spec CPE.SetEnv CPE.KW.Script

/-- A text without patterns for file names. -/
def NoPattern (v : Str) : Prop := ∀ c ∈ v, c ∉ ['*', '?', '[']

/-- A text that the shell leaves in one piece where it is not quoted: no blanks, no patterns. -/
def Solid (v : Str) : Prop := ∀ c ∈ v, c ∉ [' ', '\t', '\n', '*', '?', '[']

/-- `Passed args ws`: the words that a program gets when the arguments `args` are passed on without quotes. -/
inductive Passed : List Str → List Str → Prop
  | nil : Passed [] []
  | cons {a as ws l} : ShellWords a ws → Passed as l → Passed (a :: as) (ws ++ l)

/-- The variables that load-env.sh, and the function `gen_config_helper` that it may call, assign. -/
def loadEnvNames : List Str :=
  [py!"python_too_old", py!"script_dir", py!"load_matching_env_loc", py!"ci_mode", py!"env_file", py!"env_file_rc",
    py!"run_gen_config_helper_cmd", py!"cmake_args"]

/-- A file in the directory of the user. -/
def userFile (user name : Str) : Str := py!"/tmp/" ++ user ++ py!"/" ++ name

/-- `RcOf f rc`: the last two characters of `f` are replaced by `rc`. -/
def RcOf (f rc : Str) : Prop := ∃ stem a b, f = stem ++ [a, b] ∧ rc = stem ++ py!"rc"

/-- The files that load-env.sh removes at its end, if its variable `env_file` is `e`: two in the directory of the user, and the generated
ones. Without that variable it removes a file `rc` in the working directory. -/
def Gone (user : Str) (e : Option Str) (p : Str) : Prop :=
  p = userFile user py!".load_matching_env_loc" ∨ p = userFile user py!".ci_mode" ∨
  (e = none ∧ p = py!"rc") ∨ (∃ f, e = some f ∧ (p = f ∨ RcOf f p))

/-- The files `gone` have been removed, and nothing else. -/
def Removed (files files' : Dict Str Str) (gone : Str → Prop) : Prop :=
  ∀ p, (gone p → Dict.get? files' p = none) ∧ (¬ gone p → Dict.get? files' p = Dict.get? files p)

/-- `Leaves s s' env ps`: load-env.sh has left the shell `s` as `s'`: `env` are the exported variables, and `ps` are the programs
that have been started. Of the other variables only its own have changed. -/
structure Leaves (s s' : Shell) (env : Environ) (ps : List Started) : Prop where
  environ : s'.environ = env
  started : s'.started = s.started ++ ps
  helper : s'.helper = s.helper
  vars : ∀ x, x ∉ loadEnvNames → Dict.get? s'.vars x = Dict.get? s.vars x

/-- The variables that load-env.sh promises to unset are not set. -/
def Tidy (s : Shell) : Prop :=
  s.ret = none ∧ ∀ x ∈ [py!"python_too_old", py!"script_dir", py!"ci_mode", py!"env_file"], s.find x = none

/-- None of the variables is exported. -/
def Hidden (env : Environ) : Prop := ∀ x ∈ loadEnvNames, Dict.get? env x = none

/-- The shell from which load-env.sh is sourced: none of its variables is exported, no environment is loaded, and the name of the user is a word. -/
structure Fit (W : Machine) (s : Shell) : Prop where
  sourced : W.sourced = true
  unexported : Hidden s.environ
  unloaded : s.get py!"LOAD_ENV_INTERACTIVE_MODE" = []
  user : Solid (s.get py!"USER")

/-- A variable `env_file` of the calling shell: none, or a path of at least two characters. -/
def FitFile (e : Option Str) : Prop := ∀ f, e = some f → Solid f ∧ 2 ≤ f.length ∧ f.head? ≠ some '-'

/-- Python 3.6 or later is there, and the paths are words. -/
structure Usable (W : Machine) (s : Shell) : Prop where
  python : W.python s.environ = some false
  dir : Solid W.loadDir
  random : Solid W.random

/-- Where load_env.py is told to write the path of the script. -/
def location (W : Machine) : Str := py!".load_matching_env_loc." ++ W.random

/-- The call of load_env.py. -/
def pythonCall (W : Machine) (ws : List Str) : List Str :=
  [py!"python3", py!"-E", py!"-s", W.loadDir ++ py!"/load_env.py", py!"--load-matching-env-location", location W] ++ ws

/-- The call of load_env.py for its help. -/
def helpCall (W : Machine) : List Str := [py!"python3", py!"-E", py!"-s", W.loadDir ++ py!"/load_env.py", py!"--help"]

/-- Does `m` occur in `t`? -/
def Inside (m t : Str) : Prop := ∃ a b, t = a ++ m ++ b

/-- The arguments ask for `--ci-mode`: the text occurs in them, anywhere. -/
def AsksForCi (args : List Str) : Prop := ∀ t, Separated py!" " args t → Inside py!"--ci-mode" t

/-- A path that load_env.py writes: plain characters, and `.sh` at the end. -/
def ScriptPath (f : Str) : Prop := PlainName f ∧ f.head? ≠ some '-' ∧ ∃ stem, f = stem ++ py!".sh"

/-- `Points files loc f`: the file `loc` says `f`; line ends after it do not matter. -/
def Points (files : Dict Str Str) (loc f : Str) : Prop :=
  ScriptPath f ∧ ∃ nl, (∀ c ∈ nl, c = '\n') ∧ Dict.get? files loc = some (f ++ nl)

/-- `Helper W s files ps files'`: what the function `gen_config_helper` of gen-config.sh does, if it is defined: it starts CMake with
the words of the file `$cmake_args_file` and the path `$path_to_src`, if there are both. `ps` are the programs started. -/
inductive Helper (W : Machine) (s : Shell) (files : Dict Str Str) : List Started → Dict Str Str → Prop
  | undefined : s.helper = false → Helper W s files [] files
  | nothing : s.helper = true → (s.get py!"cmake_args_file" = [] ∨ Dict.get? files (s.get py!"cmake_args_file") = none ∨
      s.get py!"path_to_src" = []) → Helper W s files [] files
  | cmake {text ws ps files' st} : s.helper = true → s.get py!"cmake_args_file" ≠ [] → Solid (s.get py!"cmake_args_file") →
      Dict.get? files (s.get py!"cmake_args_file") = some text → NoPattern text → ShellWords text ws →
      s.get py!"path_to_src" ≠ [] → NoPattern (s.get py!"path_to_src") → ShellWords (s.get py!"path_to_src") ps →
      W.run (py!"cmake" :: (ws ++ ps)) s.environ files = (st, files') →
      Helper W s files [{ argv := py!"cmake" :: (ws ++ ps), environ := s.environ, helper := true }] files'

/-- The shell with other exported variables. -/
def with_ (s : Shell) (env : Environ) : Shell := { s with environ := env }


/-- A new shell with an environment; only the exported function comes with it. -/
def newShell (env : Environ) (helper : Bool) (files : Dict Str Str) : Shell :=
  { environ := env, vars := [], ret := none, helper := helper, files := files, started := [] }

/-- `Prompted env env'`: the variables of an interactive shell in which an environment is loaded: the prompt shows its name, and
`LOAD_ENV_INTERACTIVE_MODE` says that it is loaded. -/
def Prompted (env env' : Environ) : Prop :=
  Dict.get? env' py!"PS1" = some (py!"(" ++ (Dict.get? env py!"LOADED_ENV_NAME").getD [] ++ py!") $ ") ∧
  Dict.get? env' py!"LOAD_ENV_INTERACTIVE_MODE" = some py!"True" ∧
  ∀ x, x ≠ py!"PS1" → x ≠ py!"LOAD_ENV_INTERACTIVE_MODE" → Dict.get? env' x = Dict.get? env x

/-- A file with the given lines. -/
def fileOf (ls : List Str) : Str := ls.flatMap fun l => l ++ py!"\n"

/-- What is to be run after the environment has been loaded: `gen_config_helper`, if there is such a function. -/
def helperLine : Str := py!"declare -f -F gen_config_helper >/dev/null && [ $? -eq 0 ] && gen_config_helper || true"

/-- A line of stars. -/
def starLine : Str := py!"echo \"********************************************************************************\""

/-- The lines that load the script `f`. -/
def loadLines (f : Str) : List Str :=
  [py!"source " ++ f, py!"echo; echo; echo", starLine,
    py!"echo \"           E N V I R O N M E N T  L O A D E D  S U C E S S F U L L Y\"", starLine]

/-- The lines that make an interactive shell of it. -/
def promptLines : List Str :=
  [py!"echo; echo; echo", starLine, py!"echo \"          T Y P E  \"exit\"  T O  L E A V E  T H E  E N V I R O N M E N T\"", starLine,
    py!"export PS1=\"($LOADED_ENV_NAME) $ \"", py!"export LOAD_ENV_INTERACTIVE_MODE=\"True\""]

/-! ### gen-config.sh -/

/-- The variables that gen-config.sh unsets at its end. -/
def genConfigNames : List Str :=
  [py!"python_too_old", py!"script_dir", py!"gen_config_py_call_args", py!"path_to_src", py!"load_env_call_args", py!"cmake_args_file"]

/-- The shell from which gen-config.sh is sourced, with Python 3.6 or later. -/
structure FitGc (W : Machine) (s : Shell) : Prop where
  sourced : W.sourced = true
  unexported : ∀ x, x ∈ genConfigNames ∨ x ∈ loadEnvNames → Dict.get? s.environ x = none
  user : Solid (s.get py!"USER")
  dir : Solid W.genDir
  python : W.python s.environ = some false

/-- The text `m` occurs in the arguments. -/
def Mentioned (m : Str) (args : List Str) : Prop := ∀ t, Separated py!" " args t → Inside m t

/-- The call of gen_config.py. -/
def genCall (W : Machine) (ws : List Str) : List Str := [py!"python3", py!"-E", py!"-s", W.genDir ++ py!"/gen_config.py"] ++ ws

/-- `GcLeaves s s' user env ps F`: gen-config.sh has left the shell `s` as `s'`, if the programs `ps` have been started, and the
exported variables were `env` and the files `F` before its two files in the directory of the user, its variables and its function
are removed. -/
structure GcLeaves (s s' : Shell) (user : Str) (env : Environ) (ps : List Started) (F : Dict Str Str) : Prop where
  environ : ∀ x, x ∉ genConfigNames → Dict.get? s'.environ x = Dict.get? env x
  unset : ∀ x ∈ genConfigNames, s'.find x = none
  vars : ∀ x, x ∉ genConfigNames → x ∉ loadEnvNames → Dict.get? s'.vars x = Dict.get? s.vars x
  helper : s'.helper = false
  started : s'.started = s.started ++ ps
  files : Removed F s'.files fun p => p = userFile user py!".bash_cmake_args_loc" ∨ p = userFile user py!".load_env_args"

/-- `Splits W s args init src`: how gen-config.sh takes its arguments apart: the last one is the path to the source if it is a
directory (or empty), and otherwise all are for gen_config.py, which needs `--cmake-fragment`. The path is then a variable of the
calling shell, if there is one. -/
inductive Splits (W : Machine) (s : Shell) : List Str → List Str → Option Str → Prop
  | directory {init d} : Solid d → d = [] ∨ W.isDir d = true → Splits W s (init ++ [d]) init (some d)
  | fragment {args d} : args.getLast? = some d → d ≠ [] → Solid d → W.isDir d = false → Mentioned py!"--cmake-fragment" args →
      Splits W s args args (s.find py!"path_to_src")

/-- The exported variables with which gen-config.sh sources load-env.sh: the path `c` of the file with the flags, and the path to the
source. -/
def exportedEnv (env : Environ) (c : Str) : Option Str → Environ
  | none => Dict.set env py!"cmake_args_file" c
  | some d => Dict.set (Dict.set env py!"cmake_args_file" c) py!"path_to_src" d

/-- `GcPrepared s s2 c src ps F`: the shell in which gen-config.sh sources load-env.sh, after the programs `ps`. -/
structure GcPrepared (s s2 : Shell) (c : Str) (src : Option Str) (ps : List Started) (F : Dict Str Str) : Prop where
  environ : s2.environ = exportedEnv s.environ c src
  vars : ∀ x, x ∉ genConfigNames → Dict.get? s2.vars x = Dict.get? s.vars x
  helper : s2.helper = true
  started : s2.started = s.started ++ ps
  files : s2.files = F
  ret : s2.ret = s.ret

/-- What `$(cat ...)` gives: the text of the file without the line ends at its end, or nothing if there is no file. -/
def CatGives (files : Dict Str Str) (p t : Str) : Prop :=
  (Dict.get? files p = none ∧ t = []) ∨ (∃ nl, (∀ c ∈ nl, c = '\n') ∧ t.getLast? ≠ some '\n' ∧ Dict.get? files p = some (t ++ nl))

/-- On this machine the words `argv` start gen_config.py for `G`, which writes to `out` and tells in `loc`; it fails with a status
other than 0. -/
def RunsGen (W : Machine) (argv : List Str) (env : Environ) (files : Dict Str Str) (G : GenSite) (input : List Str) (out loc : Str) : Prop :=
  (W.run argv env files).2 = (Job.main G out loc (Job.new G.args files input)).2.files ∧
  ((W.run argv env files).1 = 0 ↔ (Job.main G out loc (Job.new G.args files input)).1 = .ok ())

/-- The same for load_env.py and the site `S`, for a build name, with the temporary file `tmp` and the file `loc`. -/
def RunsLoadEnv (W : Machine) (argv : List Str) (env : Environ) (files : Dict Str Str) (S : Site) (b : Str) (f : Bool) (tmp loc : Str) : Prop :=
  (W.run argv env files).2 = (App.main S false tmp none (some loc) (App.new b f env files)).2.files ∧
  ((W.run argv env files).1 = 0 ↔ (App.main S false tmp none (some loc) (App.new b f env files)).1 = .ok ())

end CPE.KW.Spec
