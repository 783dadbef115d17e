import Verif.Model.SetEnvironment
import Verif.Spec.Resolve
/-
Specification of the environment operations, of the action list of a section and of its execution. Of the model it
uses the data types, the unrolling of a parse (`Verif/Spec/Unroll`) and `sep.join`; the environment operations, the
action lists and the generated text are described anew.
-/
namespace CPE.SetEnv.Spec
open CPE.Spec

/-! ### Environment operations -/

/-- A character of a variable name: ASCII letter, digit or underscore. -/
def WordChar (c : Char) : Prop := c.isAlphanum = true ∨ c = '_'

/-- The text after a `$` starts a reference. -/
def StartsRef (s : Str) : Prop :=
  (∃ c t, s = c :: t ∧ WordChar c) ∨ (∃ t, s = '{' :: t ∧ '}' ∈ t)

/-- `Expands env s r`: `r` is `s` with every reference `$NAME` (longest name) or `${NAME}` to a variable that is set
replaced by its value. Values are not expanded again, references to variables that are not set stay. -/
inductive Expands (env : Environ) : Str → Str → Prop
  | nil : Expands env [] []
  | plain {c s r} : c ≠ '$' → Expands env s r → Expands env (c :: s) (c :: r)
  | braced {name s r} : '}' ∉ name → Expands env s r →
      Expands env (py!"${" ++ name ++ py!"}" ++ s) ((Dict.get? env name).getD (py!"${" ++ name ++ py!"}") ++ r)
  | bare {name s r} : name ≠ [] → (∀ c ∈ name, WordChar c) → (∀ c t, s = c :: t → ¬ WordChar c) →
      Expands env s r →
      Expands env (py!"$" ++ name ++ s) ((Dict.get? env name).getD (py!"$" ++ name) ++ r)
  | lone {s r} : ¬ StartsRef s → Expands env s r → Expands env ('$' :: s) ('$' :: r)

/-- `Removed sub s r`: `r` is `s` without the occurrences of `sub`, found from left to right without overlap. -/
inductive Removed (sub : Str) : Str → Str → Prop
  | nil : Removed sub [] []
  | hit {s r} : Removed sub s r → Removed sub (sub ++ s) r
  | miss {c s r} : ¬ sub <+: c :: s → Removed sub s r → Removed sub (c :: s) (c :: r)

/-- What an operation asks for. -/
inductive Change where
  | keep
  | unset
  | write (v : Str)
  | refuse
  deriving DecidableEq

/-- The operations on environment variables. -/
def opNames : List Str :=
  [py!"set", py!"set_if_empty", py!"append", py!"prepend", py!"unset", py!"remove_substr", py!"remove_path_entry",
   py!"find_in_path", py!"assert_not_empty"]

/-- `Demand found op old x ch`: operation `op` with argument `x` on a variable with value `old` (`none`: not set)
asks for the change `ch`; `found` is where the executable `x` is. -/
inductive Demand (found : Option Str) : Str → Option Str → Str → Change → Prop
  | set {old x} : Demand found py!"set" old x (.write x)
  | setIfUnset {x} : Demand found py!"set_if_empty" none x (.write x)
  | setIfEmpty {x} : Demand found py!"set_if_empty" (some []) x (.write x)
  | setIfNot {v x} : v ≠ [] → Demand found py!"set_if_empty" (some v) x .keep
  | appendNew {x} : Demand found py!"append" none x (.write x)
  | append {v x} : Demand found py!"append" (some v) x (.write (v ++ py!":" ++ x))
  | prependNew {x} : Demand found py!"prepend" none x (.write x)
  | prepend {v x} : Demand found py!"prepend" (some v) x (.write (x ++ py!":" ++ v))
  | unset {v x} : Demand found py!"unset" (some v) x .unset
  | unsetNone {x} : Demand found py!"unset" none x .keep
  | substrNone {x} : Demand found py!"remove_substr" none x .keep
  | substrEmpty {v} : Demand found py!"remove_substr" (some v) [] (.write v)
  | substr {v x r} : x ≠ [] → Removed x v r → Demand found py!"remove_substr" (some v) x (.write r)
  | entryNone {x} : Demand found py!"remove_path_entry" none x .keep
  | entry {x} {es : List Str} : es ≠ [] → (∀ e ∈ es, ':' ∉ e) →
      Demand found py!"remove_path_entry" (some (joinStr py!":" es)) x
        (.write (joinStr py!":" (es.filter fun e => decide (e ≠ x))))
  | find {old x v} : found = some v → Demand found py!"find_in_path" old x (.write v)
  | findNot {old x} : found = none → Demand found py!"find_in_path" old x (.write [])
  | assert {v x} : v ≠ [] → Demand found py!"assert_not_empty" (some v) x .keep
  | assertUnset {x} : Demand found py!"assert_not_empty" none x .refuse
  | assertEmpty {x} : Demand found py!"assert_not_empty" (some []) x .refuse
  | unknown {op old x} : op ∉ opNames → Demand found op old x .refuse

/-- A name the system accepts for a variable. -/
def ValidName (n : Str) : Prop := n ≠ [] ∧ '=' ∉ n ∧ Char.ofNat 0 ∉ n

/-- `Becomes env name new env'`: the variable `name` has value `new` in `env'` (`none`: it is not set), all others
are as in `env`. -/
def Becomes (env : Environ) (name : Str) (new : Option Str) (env' : Environ) : Prop :=
  Dict.get? env' name = new ∧ ∀ m, m ≠ name → Dict.get? env' m = Dict.get? env m

/-! ### The action list of a section -/

/-- The operations that put an action on a variable into the list. -/
def envvarActions : List Str := opNames.map (py!"envvar_" ++ ·)

/-- The operations that put a module action into the list. -/
def moduleActions : List Str :=
  [py!"module_load", py!"module_purge", py!"module_swap", py!"module_unload", py!"module_use"]

/-- The action an option puts into the list, if any. An assertion without message has the empty message. -/
def yields (c : HCall) : Option Action :=
  if c.op ∈ envvarActions then
    match c.params with
    | name :: _ => some (.envvar c.op name (if c.op = py!"envvar_assert_not_empty" then some (c.value.getD []) else c.value))
    | [] => none
  else if c.op ∈ moduleActions then some (.module c.op c.params.head? c.value)
  else none

/-- `c` is an option `envvar-remove NAME` or `module-remove NAME` that takes action `a` out of the list: the action is
on that variable, or it is on that module or mentions its name in its value. -/
inductive Removes (c : HCall) : Action → Prop
  | envvar {op n v} : c.op = py!"envvar_remove" → c.params.head? = some n → Removes c (.envvar op n v)
  | module {op m v} : c.op = py!"module_remove" → c.params.head? = some m → Removes c (.module op (some m) v)
  | mention {op n m x y} : c.op = py!"module_remove" → c.params.head? = some m →
      Removes c (.module op n (some (x ++ m ++ y)))

/-- `ActionList cs l`: `l` is the list of the actions put into the list by the options `cs`, in order, without those
that a later option takes out. -/
inductive ActionList : List HCall → List Action → Prop
  | nil : ActionList [] []
  | skip {c cs l} : yields c = none → ActionList cs l → ActionList (c :: cs) l
  | removed {c cs a l c'} : yields c = some a → c' ∈ cs → Removes c' a → ActionList cs l → ActionList (c :: cs) l
  | kept {c cs a l} : yields c = some a → (∀ c' ∈ cs, ¬ Removes c' a) → ActionList cs l → ActionList (c :: cs) (a :: l)

/-- The options that a handler takes in a parse of section `s`, in the order in which the parse meets them: those of
DEFAULT (if the file has it and the parse is initialized, as it is unless the caller says otherwise) and of `s`,
unrolled. -/
def HandledOptions (E : Env Shared Actions) (init : Bool) (s : Str) (cs : List HCall) : Prop :=
  ∃ evD evR,
    (if init = true ∧ E.cfg.hasSection E.defaultName = true then Unrolls E s (.sec [] E.defaultName) evD
      else evD = []) ∧
    Unrolls E s (.sec [] s) evR ∧ cs = (calls evD ++ calls evR).map Prod.snd

/-- No option of the file names the operations `initialize` or `finalize` (these are hooks of the class). -/
def NoHookOptions (E : Env Shared Actions) : Prop :=
  ∀ t keys k evs, E.cfg.optionNames t = some keys → k ∈ keys → ∀ root, meaning E root t k = .events evs →
    ∀ h c, .call h c ∈ evs → c.op ≠ py!"initialize" ∧ c.op ≠ py!"finalize"

/-! ### Performing actions -/

/-- `ModuleWords a ws`: the arguments of the `module` command for action `a`. -/
inductive ModuleWords : Action → List Str → Prop
  | purge {n v} : ModuleWords (.module py!"module_purge" n v) [py!"purge"]
  | use {n v} : ModuleWords (.module py!"module_use" n (some v)) [py!"use", v]
  | load {n} : ModuleWords (.module py!"module_load" (some n) none) [py!"load", n]
  | loadEmpty {n} : ModuleWords (.module py!"module_load" (some n) (some [])) [py!"load", n]
  | loadVersion {n v} : v ≠ [] →
      ModuleWords (.module py!"module_load" (some n) (some v)) [py!"load", n ++ py!"/" ++ v]
  | unload {n v} : ModuleWords (.module py!"module_unload" (some n) v) [py!"unload", n]
  | swap {n v} : ModuleWords (.module py!"module_swap" (some n) (some v)) [py!"swap", n, v]

/-- `EnvvarWords a ws`: the arguments of `envvar_op` for action `a`. -/
inductive EnvvarWords : Action → List Str → Prop
  | unset {n v} : EnvvarWords (.envvar py!"envvar_unset" n v) [py!"unset", n]
  | two {op n v} : op ∈ opNames → op ≠ py!"unset" →
      EnvvarWords (.envvar (py!"envvar_" ++ op) n (some v)) [op, n, v]

/-- Actions that lack a needed name or value. -/
inductive Incomplete : Action → Prop
  | envvar {op n} : op ∈ opNames → op ≠ py!"unset" → Incomplete (.envvar (py!"envvar_" ++ op) n none)
  | use {n} : Incomplete (.module py!"module_use" n none)
  | load {v} : Incomplete (.module py!"module_load" none v)
  | unload {v} : Incomplete (.module py!"module_unload" none v)
  | swapName {v} : Incomplete (.module py!"module_swap" none v)
  | swapValue {n} : Incomplete (.module py!"module_swap" n none)

/-- `Does sys a m`: to perform action `a` is to run `m` on the environment. -/
inductive Does (sys : Sys) : Action → M Environ Int → Prop
  | unset {a n} : EnvvarWords a [py!"unset", n] → Does sys a (envvarOp sys py!"unset" n [] true)
  | envvar {a op n v} : EnvvarWords a [op, n, v] → Does sys a (envvarOp sys op n v true)
  | module {a ws} : ModuleWords a ws → Does sys a (sys.module ws)
  | incomplete {a} : Incomplete a → Does sys a fun e => (.exc .typeError, e)

/-- `Program sys l ms`: to perform the actions `l` is to run `ms`, one for one. -/
inductive Program (sys : Sys) : List Action → List (M Environ Int) → Prop
  | nil : Program sys [] []
  | cons {a m as ms} : Does sys a m → Program sys as ms → Program sys (a :: as) (m :: ms)

/-- A word that Python reads back from a double-quoted literal as it is. -/
def Readable (w : Str) : Prop :=
  '"' ∉ w ∧ '\\' ∉ w ∧ '\n' ∉ w ∧ '\r' ∉ w ∧ Char.ofNat 0 ∉ w

/-- The texts in an action can be read back. -/
def Clean : Action → Prop
  | .envvar _ n v => Readable n ∧ ∀ w ∈ v, Readable w
  | .module _ n v => (∀ w ∈ n, Readable w) ∧ ∀ w ∈ v, Readable w

/-- Run steps one after the other: the first exception ends the run; a status other than 0 is a CRITICAL event
(raised from level 2 on, otherwise a notice if the level is positive and warnings are not silenced), and the result is
the largest status, at least 0. -/
def runAll (E : Env Shared Actions) : List (M Environ Int) → Int → Environ → Out Int × Environ × List Notice
  | [], acc, env => (.ok acc, env, [])
  | m :: ms, acc, env =>
    match m env with
    | (.exc e, env') => (.exc e, env', [])
    | (.diverge, env') => (.diverge, env', [])
    | (.ok r, env') =>
      if r = 0 then runAll E ms (max acc r) env'
      else if 2 ≤ E.level then (.exc .runtimeError, env', [])
      else
        let res := runAll E ms (max acc r) env'
        let note : List Notice :=
          if E.level = 1 ∧ E.silentWarnings = false then [⟨.critical, .runtimeError, E.compactWarnings⟩] else []
        (res.1, res.2.1, note ++ res.2.2)

/-- Run steps one after the other, without looking at their status; the first exception ends the run. -/
def runEach : List (M Environ Int) → Environ → Out Unit × Environ
  | [], env => (.ok (), env)
  | m :: ms, env =>
    match m env with
    | (.exc e, env') => (.exc e, env')
    | (.diverge, env') => (.diverge, env')
    | (.ok _, env') => runEach ms env'

/-! ### Scripts -/

/-- `text` is the Python command `f("w1","w2",..)`. -/
def pythonCommand (f : Str) (ws : List Str) : Str :=
  f ++ py!"(" ++ joinStr py!"," (ws.map fun w => py!"\"" ++ w ++ py!"\"") ++ py!")"

/-- The line of a script for an action. -/
inductive CommandLine : (interp : Str) → Action → Str → Prop
  | pyEnvvar {a ws} : EnvvarWords a ws → CommandLine py!"python" a (pythonCommand py!"envvar_op" ws)
  | pyModule {a ws} : ModuleWords a ws → CommandLine py!"python" a (pythonCommand py!"ModuleHelper.module" ws)
  | shEnvvar {a op ws} : EnvvarWords a (op :: ws) →
      CommandLine py!"bash" a (joinStr py!" " (py!"envvar_op" :: op :: ws.map fun w => py!"\"" ++ w ++ py!"\""))
  | shModule {a ws} : ModuleWords a ws → CommandLine py!"bash" a (joinStr py!" " (py!"module" :: ws))

/-- The lines of a script, one per action. -/
inductive CommandLines (interp : Str) : List Action → List Str → Prop
  | nil : CommandLines interp [] []
  | cons {a l as ls} : CommandLine interp a l → CommandLines interp as ls → CommandLines interp (a :: as) (l :: ls)

/-- The comment before the commands. -/
def banner : Str :=
  py!"# -------------------------------------------------\n#   S E T E N V I R O N M E N T   C O M M A N D S\n# -------------------------------------------------\n"

/-- The text of a script: the line that names the interpreter (if asked for, and unless the script is empty), the
header with the functions that commands use, and the commands, one per line. -/
def scriptText (sys : Sys) (interp : Str) (hdr sheb : Bool) (body : Option (List Str)) : Str :=
  (if sheb = true ∧ (hdr = true ∨ body ≠ none) then
    (if interp = py!"bash" then py!"#!/usr/bin/env bash\n" else py!"#!/usr/bin/env python3\n") else []) ++
  (if hdr = true then (if interp = py!"bash" then sys.bashHeader else sys.pythonHeader) ++ py!"\n\n" else []) ++
  match body with
  | none => []
  | some ls => banner ++ (ls.map (· ++ py!"\n")).flatten ++ py!"\n\n"

end CPE.SetEnv.Spec
