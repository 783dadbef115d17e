import Verif.Spec.Gather
import Verif.Spec.Literal
/-
From the options of a configuration to the environment of the process: what a user of SetEnvironment expects, read off
the options directly. No events, no handlers, no parser.
-/
namespace CPE.SetEnv.Spec
open CPE.Spec

/-- The operations that a class derived from the parser knows without SetEnvironment. -/
def baseNames : List Str := [py!"use", py!"initialize", py!"finalize"]

/-- The operations that take actions out of the list. -/
def removers : List Str := [py!"envvar_remove", py!"module_remove"]

/-- An option that is none of the operations. -/
def Foreign (o : Str × Option Str) : Prop :=
  ∃ w ps, Words o.1 (w :: ps) ∧ (¬ OpWord w ∨ opName w ∉ baseNames ++ removers ++ envvarActions ++ moduleActions)

/-- `Asks o a`: option `o` asks for action `a`. -/
inductive Asks : Str × Option Str → Action → Prop
  | envvar {k v op n ps} : Operates k op (n :: ps) → op ∈ envvarActions → op ≠ py!"envvar_assert_not_empty" →
      Asks (k, v) (.envvar op n v)
  | check {k v n ps} : Operates k py!"envvar_assert_not_empty" (n :: ps) →
      Asks (k, v) (.envvar py!"envvar_assert_not_empty" n (some (v.getD [])))
  | module {k v op ps} : Operates k op ps → op ∈ moduleActions → Asks (k, v) (.module op ps.head? v)

/-- An option `envvar-remove NAME` or `module-remove NAME`. -/
def Remover (o : Str × Option Str) : Prop := ∃ op n ps, op ∈ removers ∧ Operates o.1 op (n :: ps)

/-- `Drops o a`: option `o` takes action `a` out of the list: it names the variable, or the module, or its name occurs
in the value of a module action. -/
inductive Drops : Str × Option Str → Action → Prop
  | envvar {k v n ps op x} : Operates k py!"envvar_remove" (n :: ps) → Drops (k, v) (.envvar op n x)
  | module {k v n ps op x} : Operates k py!"module_remove" (n :: ps) → Drops (k, v) (.module op (some n) x)
  | mention {k v n ps op m x y} : Operates k py!"module_remove" (n :: ps) →
      Drops (k, v) (.module op m (some (x ++ n ++ y)))

/-- `Plan os l`: the options `os` ask for the actions `l`, in this order. -/
inductive Plan : List (Str × Option Str) → List Action → Prop
  | nil : Plan [] []
  | other {o os l} : Foreign o ∨ Remover o → Plan os l → Plan (o :: os) l
  | dropped {o os a l o'} : Asks o a → o' ∈ os → Drops o' a → Plan os l → Plan (o :: os) l
  | kept {o os a l} : Asks o a → (∀ o' ∈ os, ¬ Drops o' a) → Plan os l → Plan (o :: os) (a :: l)

/-- An option that lacks the name it is about. -/
def Nameless (o : Str × Option Str) : Prop := ∃ op, op ∈ removers ++ envvarActions ∧ Operates o.1 op []

/-- `Stuck c path s os e`: gathering the options `os` of section `s`, something goes wrong: a section is used that does
not exist, or an option lacks the name it is about. What comes before it is in order. -/
inductive Stuck (c : Cfg) : List Str → Str → List (Str × Option Str) → PyExc → Prop
  | missing {path s k v t more u os} : Tight k → Words k (py!"use" :: t :: more) → ShownAs c s v u → t ∉ path →
      (∀ os', ¬ BodyOf c t os') → Stuck c path s ((k, v) :: os) .keyError
  | nameless {path s k v u os} : Tight k → ShownAs c s v u → Nameless (k, u) → Stuck c path s ((k, v) :: os) .indexError
  | inside {path s k v t more u os os' e} : Tight k → Words k (py!"use" :: t :: more) → ShownAs c s v u → t ∉ path →
      BodyOf c t os' → Stuck c (t :: path) t os' e → Stuck c path s ((k, v) :: os) e
  | later {path s o os ws l e} : Gathers c (fun _ => True) path s [o] ws → Plan ws l → Stuck c path s os e →
      Stuck c path s (o :: os) e

/-- No key of the configuration begins with the name of one of the two hooks. -/
def Hookless (c : Cfg) : Prop :=
  ∀ s os, BodyOf c s os → ∀ o ∈ os, ∀ k w, Trimmed White o.1 k → Begins k w → w ≠ py!"initialize" ∧ w ≠ py!"finalize"

/-- `Applied env x ch env'`: the change `ch` of variable `x`, made. -/
inductive Applied (env : Environ) (x : Str) : Change → Environ → Prop
  | keep : Applied env x .keep env
  | unset {env'} : Becomes env x none env' → Applied env x .unset env'
  | write {v env'} : ValidName x → Char.ofNat 0 ∉ v → Becomes env x (some v) env' → Applied env x (.write v) env'

/-- `Denied x ch e`: the change `ch` of variable `x` cannot be made. -/
inductive Denied (x : Str) : Change → PyExc → Prop
  | refuse : Denied x .refuse .valueError
  | name {v} : x = [] → Char.ofNat 0 ∉ v → Denied x (.write v) .ioError
  | chars {v} : '=' ∈ x ∨ Char.ofNat 0 ∈ x ∨ Char.ofNat 0 ∈ v → Denied x (.write v) .valueError

/-- `Touches a op x y`: action `a` is the operation `op` on variable `x` with argument `y`, as Python reads them. -/
inductive Touches : Action → Str → Str → Str → Prop
  | unset {a n x} : EnvvarWords a [py!"unset", n] → Literal n x → Touches a py!"unset" x []
  | two {a op n v x y} : EnvvarWords a [op, n, v] → Literal n x → Literal v y → Touches a op x y

/-- `Wants sys env a x ch`: in environment `env`, action `a` asks for the change `ch` of variable `x`. -/
def Wants (sys : Sys) (env : Environ) (a : Action) (x : Str) (ch : Change) : Prop :=
  ∃ op y z, Touches a op x y ∧ Expands env y z ∧ Demand (sys.which env z) op (Dict.get? env x) z ch

/-- `Runs sys l env r env'`: performing the actions `l` in environment `env`, one after the other, ends with `r` and
leaves `env'`. An action that cannot be performed ends it, and leaves what the actions before it have made. -/
inductive Runs (sys : Sys) : List Action → Environ → Out Int → Environ → Prop
  | done {env} : Runs sys [] env (.ok 0) env
  | change {a l env x ch env' r env''} : Wants sys env a x ch → Applied env x ch env' → Runs sys l env' r env'' →
      Runs sys (a :: l) env r env''
  | denied {a l env x ch e} : Wants sys env a x ch → Denied x ch e → Runs sys (a :: l) env (.exc e) env
  | module {a l env ws xs env' r env''} : ModuleWords a ws → Literals ws xs → sys.module xs env = (.ok 0, env') →
      Runs sys l env' r env'' → Runs sys (a :: l) env r env''
  | status {a l env ws xs i env'} : ModuleWords a ws → Literals ws xs → sys.module xs env = (.ok i, env') → i ≠ 0 →
      Runs sys (a :: l) env (.exc .runtimeError) env'
  | raises {a l env ws xs e env'} : ModuleWords a ws → Literals ws xs → sys.module xs env = (.exc e, env') →
      Runs sys (a :: l) env (.exc e) env'
  | hangs {a l env ws xs env'} : ModuleWords a ws → Literals ws xs → sys.module xs env = (.diverge, env') →
      Runs sys (a :: l) env .diverge env'
  | lacks {a l env} : Incomplete a → Runs sys (a :: l) env (.exc .typeError) env
  | unreadable {a l env f ws} : Calls a f ws → Erroneous ws → Runs sys (a :: l) env (.exc (.user py!"SyntaxError")) env

end CPE.SetEnv.Spec
