import Verif.Model.GenOutput
import Verif.Model.TopLevel
/-
Model of the command lines of the tools:
  wip/loadenv/load_env.py:364-516     `__parser`      (cited as LE)
  wip/genconfig/gen_config.py:380-496 `__parser`      (cited as GC)
and of the part of the standard `argparse` (cited as AP) they use: options that are flags or take one value, and one
positional argument with `nargs="?"`.

Not modelled, with the outcome `notModelled`, because versions of Python differ: the word `--`; and `=` after a flag in a
word with a single dash (`-l=x`, `-lo=x`). `SystemExit` is without its code: 0 after `--help`, 2 after an error. What
argparse takes for a negative number is an arbitrary predicate `neg`; no option looks like one. `Path(p).resolve()` is an
arbitrary function, as in `Verif/Model/TopLevel`.
-/
namespace CPE.Cli
open CPE CPE.KW

/-- What an option does: `store_true`/`store_false`, `store`, `help`. -/
inductive Act where
  | flag (b : Bool)
  | store
  | help
  deriving DecidableEq, Repr

/-- `add_argument(*names, dest=..., action=...)`. -/
structure Opt where
  names : List Str
  dest : Str
  act : Act
  deriving DecidableEq, Repr

abbrev Table := List Opt

def notModelled {α : Type} : Out α := .exc (.user py!"NotModelled")

/-- `self._option_string_actions` (AP `_add_action`): option strings and their options, in order. -/
def strings (T : Table) : List (Str × Opt) := T.flatMap fun o => o.names.map fun s => (s, o)

/-- `self._option_string_actions.get(s)`; a name that is added twice would be an error. -/
def find (T : Table) (s : Str) : Option Opt := T.find? fun o => s ∈ o.names

/-- `w.split("=", 1)`, for a word with an equals sign. -/
def beforeEq (w : Str) : Str := w.takeWhile (· ≠ '=')
def afterEq (w : Str) : Str := (w.dropWhile (· ≠ '=')).drop 1

/-- How a word is read: a word on its own; an option, the option string it stands for, the text given with it, and
whether that is after an equals sign; or an option that there is not. -/
inductive Kind where
  | word
  | opt (o : Opt) (s : Str) (given : Option Str) (eq : Bool)
  | unknown
  deriving DecidableEq, Repr

/-- AP `_get_option_tuples`: the options that a word may stand for. Of a word with two dashes, the part before an equals
sign may be the beginning of an option string. Of a word with one dash, the first two characters may be the option
string. -/
def candidates (T : Table) (w : Str) : List Kind :=
  if w.take 2 = py!"--" then
    (strings T).filterMap fun p =>
      if beforeEq w <+: p.1 then some (.opt p.2 p.1 (if '=' ∈ w then some (afterEq w) else none) ('=' ∈ w)) else none
  else
    (strings T).filterMap fun p =>
      if p.1 = w.take 2 then some (.opt p.2 p.1 (some (w.drop 2)) false)
      else if w <+: p.1 then some (.opt p.2 p.1 none false)
      else none

/-- AP `_parse_optional`. An ambiguous beginning ends the program. -/
def classify (neg : Str → Bool) (T : Table) (w : Str) : Out Kind :=
  if w.head? ≠ some '-' then .ok .word
  else match find T w with
    | some o => .ok (.opt o w none false)
    | none =>
      if w.length = 1 then .ok .word
      else match (if '=' ∈ w then find T (beforeEq w) else none) with
        | some o => .ok (.opt o (beforeEq w) (some (afterEq w)) true)
        | none => match candidates T w with
          | [k] => .ok k
          | _ :: _ :: _ => .exc .systemExit
          | [] => if neg w = true then .ok .word else if ' ' ∈ w then .ok .word else .ok .unknown

/-- What is done, in order: a word, an option with its value, a word that nothing wants. -/
inductive Item where
  | word (w : Str)
  | act (o : Opt) (value : Option Str)
  | extra
  deriving DecidableEq, Repr

/-- AP `consume_optional`, text given in the same word as a short option: the text is the value, or more short options.
Gives what is to be done and an option that still needs its value. -/
def chain (T : Table) : Opt → Str → Out (List Item × Option Opt)
  | o, [] => if o.act = .store then .ok ([], some o) else .ok ([.act o none], none)
  | o, c :: e =>
    if c = '=' then notModelled
    else if o.act = .store then .ok ([.act o (some (c :: e))], none)
    else match find T ['-', c] with
      | none => .exc .systemExit
      | some o' => match chain T o' e with
        | .ok (is, p) => .ok (.act o none :: is, p)
        | .exc x => .exc x
        | .diverge => .diverge

/-- AP `consume_optional`, for one word. -/
def consume (T : Table) (o : Opt) (s : Str) (given : Option Str) (eq : Bool) : Out (List Item × Option Opt) :=
  match given with
  | none => if o.act = .store then .ok ([], some o) else .ok ([.act o none], none)
  | some e =>
    if o.act = .store then .ok ([.act o (some e)], none)
    else if s.take 2 = py!"--" then .exc .systemExit
    else if eq = true then notModelled
    else chain T o e

/-- AP `_parse_known_args`, the loop over words and options. An option that takes a value needs a word next to it. -/
def loop (T : Table) : List (Str × Kind) → Out (List Item)
  | [] => .ok []
  | (w, .word) :: r => match loop T r with
    | .ok is => .ok (.word w :: is)
    | x => x
  | (_, .unknown) :: r => match loop T r with
    | .ok is => .ok (.extra :: is)
    | x => x
  | (_, .opt o s given eq) :: r => match consume T o s given eq with
    | .ok (is, none) => match loop T r with
      | .ok js => .ok (is ++ js)
      | x => x
    | .ok (is, some o) => match r with
      | (v, .word) :: r => match loop T r with
        | .ok js => .ok (is ++ .act o (some v) :: js)
        | x => x
      | _ => .exc .systemExit
    | .exc x => .exc x
    | .diverge => .diverge

/-- AP `_parse_known_args`, the first pass over all words. -/
def classifyAll (neg : Str → Bool) (T : Table) : List Str → Out (List (Str × Kind))
  | [] => .ok []
  | w :: ws => match classify neg T w with
    | .ok k => match classifyAll neg T ws with
      | .ok r => .ok ((w, k) :: r)
      | .exc x => .exc x
      | .diverge => .diverge
    | .exc x => .exc x
    | .diverge => .diverge

/-- What is to be done. -/
def items (neg : Str → Bool) (T : Table) (argv : List Str) : Out (List Item) :=
  if py!"--" ∈ argv then notModelled
  else match classifyAll neg T argv with
    | .ok ks => loop T ks
    | .exc x => .exc x
    | .diverge => .diverge

/-- A value in the namespace. -/
inductive NVal where
  | none
  | bool (b : Bool)
  | text (s : Str)
  deriving DecidableEq, Repr

abbrev Namespace := Dict Str NVal

/-- The defaults (LE:417-513, GC:429-494): the build name is empty, flags are False (also the one with `store_false`,
LE:502-503), the others are None. -/
def defaults (T : Table) : Namespace :=
  (T.filter fun o => o.act ≠ .help).foldl
    (fun ns o => Dict.set ns o.dest (if o.act = .store then .none else .bool false)) [(py!"build_name", .text [])]

/-- One thing done: the first word is the build name, and there is no use for a second one. -/
def perform (resolve : Str → Str) : Item → Namespace × Bool × Bool → Out (Namespace × Bool × Bool)
  | .word w, (ns, seen, extra) =>
    if seen = true then .ok (ns, true, true) else .ok (Dict.set ns py!"build_name" (.text w), true, extra)
  | .extra, (ns, seen, _) => .ok (ns, seen, true)
  | .act o v, (ns, seen, extra) => match o.act with
    | .help => .exc .systemExit
    | .flag b => .ok (Dict.set ns o.dest (.bool b), seen, extra)
    | .store => .ok (Dict.set ns o.dest (.text (resolve (v.getD []))), seen, extra)

def performAll (resolve : Str → Str) : List Item → Namespace × Bool × Bool → Out (Namespace × Bool × Bool)
  | [], s => .ok s
  | i :: is, s => match perform resolve i s with
    | .ok s => performAll resolve is s
    | .exc e => .exc e
    | .diverge => .diverge

/-- AP `parse_args`: words that nothing wants are an error. -/
def parseArgs (resolve : Str → Str) (neg : Str → Bool) (T : Table) (argv : List Str) : Out Namespace :=
  match items neg T argv with
  | .ok is => match performAll resolve is (defaults T, false, false) with
    | .ok (ns, _, extra) => if extra = true then .exc .systemExit else .ok ns
    | .exc e => .exc e
    | .diverge => .diverge
  | .exc e => .exc e
  | .diverge => .diverge

/-- `args.dest` -/
def Namespace.flag (ns : Namespace) (d : Str) : Bool := Dict.get? ns d = some (.bool true)
def Namespace.text? (ns : Namespace) (d : Str) : Option Str :=
  match Dict.get? ns d with
  | some (.text s) => some s
  | _ => none

/-- LE:410-514; argparse adds the first one. -/
def leTable : Table :=
  [ ⟨[py!"-h", py!"--help"], py!"help", .help⟩,
    ⟨[py!"-l", py!"--list-envs"], py!"list_envs", .flag true⟩,
    ⟨[py!"-o", py!"--output"], py!"output", .store⟩,
    ⟨[py!"-f", py!"--force"], py!"force", .flag true⟩,
    ⟨[py!"--supported-systems"], py!"supported_systems_file", .store⟩,
    ⟨[py!"--supported-envs"], py!"supported_envs_file", .store⟩,
    ⟨[py!"--environment-specs"], py!"environment_specs_file", .store⟩,
    ⟨[py!"--ci-mode"], py!"do_not_use_this_ci_mode_argument_in_load_env_python_code", .flag false⟩,
    ⟨[py!"--load-matching-env-location"], py!"load_matching_env_location", .store⟩ ]

/-- GC:429-494. -/
def gcTable : Table :=
  [ ⟨[py!"-h", py!"--help"], py!"help", .help⟩,
    ⟨[py!"-l", py!"--list-configs"], py!"list_configs", .flag true⟩,
    ⟨[py!"--list-config-flags"], py!"list_config_flags", .flag true⟩,
    ⟨[py!"--cmake-fragment"], py!"cmake_fragment", .store⟩,
    ⟨[py!"-f", py!"--force"], py!"force", .flag true⟩,
    ⟨[py!"-y", py!"--yes"], py!"yes", .flag true⟩,
    ⟨[py!"--ci-mode"], py!"ci_mode", .flag true⟩,
    ⟨[py!"--save-load-env-args"], py!"save_load_env_args", .store⟩,
    ⟨[py!"--supported-config-flags"], py!"supported_config_flags_file", .store⟩,
    ⟨[py!"--config-specs"], py!"config_specs_file", .store⟩,
    ⟨[py!"--supported-systems"], py!"supported_systems_file", .store⟩,
    ⟨[py!"--supported-envs"], py!"supported_envs_file", .store⟩,
    ⟨[py!"--environment-specs"], py!"environment_specs_file", .store⟩ ]

/-- The command line of LoadEnv as the rest of the code sees it (LE:334-361, 530-543). -/
structure LeArgs where
  build : Str
  listEnvs : Bool
  output : Option Str
  force : Bool
  systems : Option Str
  envs : Option Str
  specs : Option Str
  location : Option Str
  deriving DecidableEq, Repr

/-- LE:343 `self.__parser().parse_args(self.argv)`. -/
def leParse (resolve : Str → Str) (neg : Str → Bool) (argv : List Str) : Out LeArgs :=
  match parseArgs resolve neg leTable argv with
  | .ok ns => .ok {
      build := (ns.text? py!"build_name").getD [], listEnvs := ns.flag py!"list_envs",
      output := ns.text? py!"output", force := ns.flag py!"force",
      systems := ns.text? py!"supported_systems_file", envs := ns.text? py!"supported_envs_file",
      specs := ns.text? py!"environment_specs_file", location := ns.text? py!"load_matching_env_location" }
  | .exc e => .exc e
  | .diverge => .diverge

/-- The command line of GenConfig (GC:343-377, 499-513). -/
structure GcArgs where
  build : Str
  listConfigs : Bool
  listFlags : Bool
  fragment : Option Str
  force : Bool
  yes : Bool
  ciMode : Bool
  saveArgs : Option Str
  flagsFile : Option Str
  configsFile : Option Str
  systems : Option Str
  envs : Option Str
  specs : Option Str
  deriving DecidableEq, Repr

/-- GC:351 `self.__parser().parse_args(self.argv)`. -/
def gcParse (resolve : Str → Str) (neg : Str → Bool) (argv : List Str) : Out GcArgs :=
  match parseArgs resolve neg gcTable argv with
  | .ok ns => .ok {
      build := (ns.text? py!"build_name").getD [], listConfigs := ns.flag py!"list_configs",
      listFlags := ns.flag py!"list_config_flags", fragment := ns.text? py!"cmake_fragment",
      force := ns.flag py!"force", yes := ns.flag py!"yes", ciMode := ns.flag py!"ci_mode",
      saveArgs := ns.text? py!"save_load_env_args", flagsFile := ns.text? py!"supported_config_flags_file",
      configsFile := ns.text? py!"config_specs_file", systems := ns.text? py!"supported_systems_file",
      envs := ns.text? py!"supported_envs_file", specs := ns.text? py!"environment_specs_file" }
  | .exc e => .exc e
  | .diverge => .diverge

/-- The configuration files that the command line gives, by section and option of gen-config.ini (GC:353-373). -/
def GcArgs.given (a : GcArgs) (sk : Str × Str) : Option Str :=
  if sk = (py!"gen-config", py!"supported-config-flags") then a.flagsFile
  else if sk = (py!"gen-config", py!"config-specs") then a.configsFile
  else if sk = (py!"load-env", py!"supported-systems") then a.systems
  else if sk = (py!"load-env", py!"supported-envs") then a.envs
  else if sk = (py!"load-env", py!"environment-specs") then a.specs
  else none

/-- LE:345-358. -/
def LeArgs.given (a : LeArgs) (sk : Str × Str) : Option Str :=
  if sk = (py!"load-env", py!"supported-systems") then a.systems
  else if sk = (py!"load-env", py!"supported-envs") then a.envs
  else if sk = (py!"load-env", py!"environment-specs") then a.specs
  else none

/-- GC:343-377 `args`, the whole of it: the command line is read first, then gen-config.ini. -/
def genArgs (n : Nat) (fs : FS) (ini : Str) (resolve : Str → Str) (neg : Str → Bool) (argv : List Str) : M GCTop GenArgs :=
  match gcParse resolve neg argv with
  | .ok a => do
    let files ← GCTop.getArgs n fs ini resolve a.given
    pure {
      build := a.build, force := a.force, ciMode := a.ciMode, listConfigs := a.listConfigs, listFlags := a.listFlags,
      fragment := a.fragment, yes := a.yes, saveArgs := a.saveArgs,
      flagsFile := files.getD 0 [], configsFile := files.getD 1 [], systemsFile := files.getD 2 [],
      envsFile := files.getD 3 [], specsFile := files.getD 4 [] }
  | .exc e => M.raise e
  | .diverge => fun g => (.diverge, g)

/-- LE:109-126, 334-361: the constructor of LoadEnv checks load-env.ini, then the command line is read, and then the
three files are known. -/
def leArgs (n : Nat) (fs : FS) (ini : Str) (resolve : Str → Str) (neg : Str → Bool) (argv : List Str) : Out (LeArgs × List Str) :=
  match (checkTop n fs ini loadEnvTop (topNew ini)).1 with
  | .ok _ => match leParse resolve neg argv with
    | .ok a => match leFiles n fs ini resolve a.given with
      | .ok files => .ok (a, files)
      | .exc e => .exc e
      | .diverge => .diverge
    | .exc e => .exc e
    | .diverge => .diverge
  | .exc e => .exc e
  | .diverge => .diverge

end CPE.Cli
