import Verif.Model.LoadEnv
import Verif.Spec.GenConfig
import Verif.Spec.BashScript
/-
Specification for the part of LoadEnv that applies an environment and writes a script for it.
-/
namespace CPE.KW.Spec
open CPE CPE.Spec CPE.SetEnv CPE.SetEnv.Spec

/-- What a client can do with a LoadEnv object. -/
inductive AppOp where
  | name (op : LeOp)
  | load
  | apply
  | write (tmp : Str) (output : Option Str)

/-- The state after an operation, whatever its outcome. -/
def AppOp.after (W : Site) : AppOp → App → App
  | .name op, a => (App.onNames (LeOp.exec W.tool op) a).2
  | .load, a => (App.load W a).2
  | .apply, a => (App.applyEnv W a).2
  | .write tmp output, a => (App.write W tmp output a).2

/-- The state after a history. -/
def AppOp.run (W : Site) : List AppOp → App → App
  | [], a => a
  | op :: ops, a => AppOp.run W ops (op.after W a)

/-- The build name after a history that began with the build name `b`. -/
def AppOp.buildAfter (b : Str) : List AppOp → Str
  | [] => b
  | .name (.setBuildName b') :: ops => AppOp.buildAfter b' ops
  | _ :: ops => AppOp.buildAfter b ops

/-- `l` is the list of actions that environment-specs.ini gives the environment `q`. -/
def EnvActions (W : Site) (q : Str) (l : List Action) : Prop :=
  ∃ cs, HandledOptions W.env true q cs ∧ ActionList cs l

/-- `Goes ms env r env'`: the steps `ms` are performed in order on `env`, which becomes `env'`. The first step that raises,
or whose status is not 0 (RuntimeError), ends it. -/
inductive Goes : List (M Environ Int) → Environ → Out Unit → Environ → Prop
  | done {env} : Goes [] env (.ok ()) env
  | step {m ms env env' r env''} : m env = (.ok 0, env') → Goes ms env' r env'' → Goes (m :: ms) env r env''
  | status {m ms env env' i} : m env = (.ok i, env') → i ≠ 0 → Goes (m :: ms) env (.exc .runtimeError) env'
  | raises {m ms env env' e} : m env = (.exc e, env') → Goes (m :: ms) env (.exc e) env'
  | hangs {m ms env env'} : m env = (.diverge, env') → Goes (m :: ms) env .diverge env'

/-- The script for an environment: the Bash script of its commands, with header, and a last line that sets
LOADED_ENV_NAME. -/
def matchingScript (W : Site) (ls : List Str) (q : Str) : Str :=
  scriptText W.sys py!"bash" true true (some ls) ++ py!"export LOADED_ENV_NAME=" ++ q

/-- A name that Bash takes as it is. -/
def PlainName (q : Str) : Prop := ∀ c ∈ q, WordChar c ∨ c ∈ ['-', '+', '.', ',', ':', '/', '@', '%', '=']

/-- The files `fs'` are `fs` but for `tmp` and `output`, which say `text`. -/
def Wrote (fs fs' : Dict Str Str) (tmp : Str) (output : Option Str) (text : Str) : Prop :=
  ∀ f, (f = tmp ∨ output = some f → Dict.get? fs' f = some text) ∧
    (f ≠ tmp → output ≠ some f → Dict.get? fs' f = Dict.get? fs f)

end CPE.KW.Spec
