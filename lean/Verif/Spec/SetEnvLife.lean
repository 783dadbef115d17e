import Verif.Model.SetEnvLife
import Verif.Spec.SetEnvPrint
/-
Specification of where the list of actions of a section comes from in the life of an object.
-/
namespace CPE.SetEnv.Spec
open CPE.Spec

/-- `ListOf st c init t l`: `l` is the list of actions that configuration `c` gives section `t` (`init`: with the
options of DEFAULT, as it is unless the caller of `parse_section` says otherwise). -/
def ListOf (st : Settings) (c : Cfg) (init : Bool) (t : Str) (l : List Action) : Prop :=
  ∃ cs, HandledOptions (env c st) init t cs ∧ ActionList cs l

/-- The operation is a (successful) assignment to `actions`. -/
def Assignment : LOp → Prop
  | .setActions (some _) => True
  | _ => False

/-- `Source st run h t l`: after the history `h` (`run p` is the object after the history `p`), the list `l` of section `t` was part
of the last assignment to `actions`, or was made at a later operation from the configuration that the object had
loaded when that operation ended. -/
inductive Source (st : Settings) (run : List (FS × LOp) → Life) (h : List (FS × LOp)) (t : Str) (l : List Action) : Prop
  | assigned {pre fs a post} : h = pre ++ (fs, .setActions (some a)) :: post →
      (∀ p ∈ post, ¬ Assignment p.2) → Dict.get? a t = some l → Source st run h t l
  | parsed {pre fs op post c init} : h = pre ++ (fs, op) :: post → ¬ Assignment op →
      (∀ p ∈ post, ¬ Assignment p.2) → (run (pre ++ [(fs, op)])).full.cfg = some c → ListOf st c init t l →
      init = true ∨ op = .base (.ed (.parseSection t false true)) → Source st run h t l

end CPE.SetEnv.Spec
