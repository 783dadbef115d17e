import Verif.Model.SetEnvPrint
import Verif.Spec.SetEnvironment
/-
Specification of what `pretty_print_actions` and `pretty_print_envvars` print.
-/
namespace CPE.SetEnv.Spec

/-- A text, or the word None where there is none. -/
def orNone (v : Option Str) : Str := v.getD py!"None"

/-- The operation of an action. -/
def opOf : Action → Str
  | .envvar op _ _ => op
  | .module op _ _ => op

/-- The value of an action. -/
def valueOf : Action → Option Str
  | .envvar _ _ v => v
  | .module _ _ v => v

/-- The operations that the listing knows. -/
def listedOps : List Str := envvarActions ++ moduleActions

/-- `Shown repr a t`: `t` is what the listing says about action `a` behind its operation. The last rule concerns
actions that no file asks for, but that may be in a list the client has made; `repr` is the text Python has for them. -/
inductive Shown (repr : Action → Str) : Action → Str → Prop
  | load {n v} : v ≠ [] → Shown repr (.module py!"module_load" n (some v)) (orNone n ++ py!"/" ++ v)
  | loadDefault {n} : Shown repr (.module py!"module_load" n none) (orNone n ++ py!" (default)")
  | loadEmpty {n} : Shown repr (.module py!"module_load" n (some [])) (orNone n ++ py!" (default)")
  | purge {a} : opOf a = py!"module_purge" → Shown repr a []
  | swap {n v} : Shown repr (.module py!"module_swap" n v) (orNone n ++ py!" " ++ orNone v)
  | unload {n v} : Shown repr (.module py!"module_unload" n v) (orNone n)
  | use {a} : opOf a = py!"module_use" → Shown repr a (orNone (valueOf a))
  | set {n v} : Shown repr (.envvar py!"envvar_set" n v) (n ++ py!"=\"" ++ orNone v ++ py!"\"")
  | setIfEmpty {n v} : Shown repr (.envvar py!"envvar_set_if_empty" n v) (n ++ py!"=\"" ++ orNone v ++ py!"\"")
  | find {n v} : Shown repr (.envvar py!"envvar_find_in_path" n v) (n ++ py!"=\"" ++ orNone v ++ py!"\"")
  | append {n v} : Shown repr (.envvar py!"envvar_append" n v) (n ++ py!"=\"${" ++ n ++ py!"}:" ++ orNone v ++ py!"\"")
  | prepend {n v} : Shown repr (.envvar py!"envvar_prepend" n v) (n ++ py!"=\"" ++ orNone v ++ py!":${" ++ n ++ py!"}\"")
  | unset {n v} : Shown repr (.envvar py!"envvar_unset" n v) n
  | assert {n v} : Shown repr (.envvar py!"envvar_assert_not_empty" n v) n
  | removeEntry {n v} : Shown repr (.envvar py!"envvar_remove_path_entry" n v)
      (py!"remove path `" ++ orNone v ++ py!"` from `" ++ n ++ py!"`")
  | removeSubstr {n v} : Shown repr (.envvar py!"envvar_remove_substr" n v)
      (py!"remove string `" ++ orNone v ++ py!"` from `${" ++ n ++ py!"}`")
  | other {a} : opOf a ∉ listedOps → Shown repr a (py!"(unhandled) " ++ repr a)

/-- The listing cannot show the action: it is made for modules but is on a variable, or the other way round. No file
asks for such an action. -/
inductive Lacks : Action → Prop
  | module {op n v} : op ∈ [py!"module_load", py!"module_swap", py!"module_unload"] → Lacks (.envvar op n v)
  | envvar {op n v} : op ∈ envvarActions → Lacks (.module op n v)

/-- `Wide l w`: `w` is the width of the column of operations: the length of the longest one, at least 14. -/
def Wide (l : List Action) (w : Nat) : Prop :=
  14 ≤ w ∧ (∀ a ∈ l, (opOf a).length ≤ w) ∧ (w = 14 ∨ ∃ a ∈ l, (opOf a).length = w)

/-- The beginning of a row: an arrow, and the operation filled up with blanks to width `w`. -/
def Label (w : Nat) (a : Action) (t : Str) : Prop :=
  ∃ pad, (∀ c ∈ pad, c = ' ') ∧ (opOf a ++ pad).length = w ∧ t = py!"--> " ++ opOf a ++ pad ++ py!" : "

/-- `Rows repr w l t`: `t` consists of one line per action of `l`, in order. -/
inductive Rows (repr : Action → Str) (w : Nat) : List Action → Str → Prop
  | nil : Rows repr w [] []
  | cons {a as lab t ts} : Label w a lab → Shown repr a t → Rows repr w as ts →
      Rows repr w (a :: as) (lab ++ t ++ py!"\n" ++ ts)

/-- The two lines above the rows. -/
def heading : Str := py!"Actions\n=======\n"

/-- `Listing repr l t`: `t` is the listing of the actions `l`. -/
def Listing (repr : Action → Str) (l : List Action) (t : Str) : Prop :=
  ∃ w rows, Wide l w ∧ Rows repr w l rows ∧ t = heading ++ rows

/-- Some entry of the filter is part of the name. -/
def Mentions (fs : List Str) (name : Str) : Prop := ∃ f ∈ fs, ∃ x y, name = x ++ f ++ y

/-- `VarLine filter only name value t`: `t` is what is printed about a variable. -/
inductive VarLine : (filter : Option (List Str)) → (only : Bool) → (name value : Str) → Str → Prop
  | all {only k v} : VarLine none only k v (py!"[envvar]: " ++ k ++ py!" = " ++ v ++ py!"\n")
  | hit {fs only k v} : Mentions fs k → VarLine (some fs) only k v (py!"[envvar]: " ++ k ++ py!" = " ++ v ++ py!"\n")
  | name {fs k v} : ¬ Mentions fs k → VarLine (some fs) false k v (py!"[envvar]: " ++ k ++ py!"\n")
  | hidden {fs k v} : ¬ Mentions fs k → VarLine (some fs) true k v []

/-- The lines of all variables, in the order of the environment. -/
inductive VarLines (filter : Option (List Str)) (only : Bool) : List (Str × Str) → Str → Prop
  | nil : VarLines filter only [] []
  | cons {k v rest t ts} : VarLine filter only k v t → VarLines filter only rest ts →
      VarLines filter only ((k, v) :: rest) (t ++ ts)

/-- The banner above the variables. -/
def varBanner : Str :=
  py!"+====================================================================+\n|   P R I N T   E N V I R O N M E N T   V A R S\n+====================================================================+\n"

/-- The filter argument that says `filter`. -/
def filterArg : Option (List Str) → FilterArg
  | none => .none
  | some fs => .list (fs.map some)

end CPE.SetEnv.Spec
