import Verif.Model.SetEnvironment
/-
Model of the two printing methods of wip/setenvironment/src/setenvironment/SetEnvironment.py,
`pretty_print_actions` (L344-425) and `pretty_print_envvars` (L427-497). Line numbers refer to that file.
-/
namespace CPE.SetEnv

/-- An object with its environment, and what has been printed on the standard output by `print`. Notices of events are
kept apart (`State.obj.out`), their place between the printed lines is not modelled. -/
structure Console where
  st : State
  stdout : Str

/-- `print(t, end="")`. -/
def print (t : Str) : M Console Unit := M.modify fun c => { c with stdout := c.stdout ++ t }

/-- Run code of the object. -/
def onState {α : Type} (m : M State α) : M Console α := fun c =>
  ((m c.st).1, { c with st := (m c.st).2 })

/-- `"{}".format(x)` for a str or None. -/
def fmtOpt : Option Str → Str
  | some x => x
  | none => py!"None"

/-- `"{:<{width}}".format(s, width=w)` (L385). -/
def ljust (w : Nat) (s : Str) : Str := s ++ List.replicate (w - s.length) ' '

/-- `iaction['op']` (L378, L383). -/
def Action.op : Action → Str
  | .envvar op _ _ => op
  | .module op _ _ => op

/-- `iaction['value']`. -/
def Action.value : Action → Option Str
  | .envvar _ _ v => v
  | .module _ _ v => v

/-- `iaction['envvar']`: KeyError if the action has no such key. -/
def Action.getEnvvar : Action → Except PyExc Str
  | .envvar _ n _ => .ok n
  | .module _ _ _ => .error .keyError

/-- `iaction['module']`: KeyError if the action has no such key. -/
def Action.getModule : Action → Except PyExc (Option Str)
  | .module _ n _ => .ok n
  | .envvar _ _ _ => .error .keyError

/-- L387-423: what is printed behind the operation. `repr` is the text of a dict (`"{}".format(iaction)`, L423). -/
def actionText (repr : Action → Str) (a : Action) : Except PyExc Str :=
  if a.op = py!"module_load" then
    if a.value = none ∨ a.value = some [] then a.getModule.map fun m => fmtOpt m ++ py!" (default)"
    else a.getModule.map fun m => fmtOpt m ++ py!"/" ++ fmtOpt a.value
  else if a.op = py!"module_purge" then .ok []
  else if a.op = py!"module_swap" then a.getModule.map fun m => fmtOpt m ++ py!" " ++ fmtOpt a.value
  else if a.op = py!"module_unload" then a.getModule.map fmtOpt
  else if a.op = py!"module_use" then .ok (fmtOpt a.value)
  else if a.op = py!"envvar_append" then a.getEnvvar.map fun n =>
    n ++ py!"=\"" ++ (py!"${" ++ n ++ py!"}") ++ py!":" ++ fmtOpt a.value ++ py!"\""
  else if a.op = py!"envvar_assert_not_empty" then a.getEnvvar
  else if a.op = py!"envvar_find_in_path" then a.getEnvvar.map fun n => n ++ py!"=\"" ++ fmtOpt a.value ++ py!"\""
  else if a.op = py!"envvar_prepend" then a.getEnvvar.map fun n =>
    n ++ py!"=\"" ++ fmtOpt a.value ++ py!":" ++ (py!"${" ++ n ++ py!"}") ++ py!"\""
  else if a.op = py!"envvar_remove_path_entry" then a.getEnvvar.map fun n =>
    py!"remove path `" ++ fmtOpt a.value ++ py!"` from `" ++ n ++ py!"`"
  else if a.op = py!"envvar_remove_substr" then a.getEnvvar.map fun n =>
    py!"remove string `" ++ fmtOpt a.value ++ py!"` from `" ++ (py!"${" ++ n ++ py!"}") ++ py!"`"
  else if a.op = py!"envvar_set" then a.getEnvvar.map fun n => n ++ py!"=\"" ++ fmtOpt a.value ++ py!"\""
  else if a.op = py!"envvar_set_if_empty" then a.getEnvvar.map fun n => n ++ py!"=\"" ++ fmtOpt a.value ++ py!"\""
  else if a.op = py!"envvar_unset" then a.getEnvvar
  else .ok (py!"(unhandled) " ++ repr a)

/-- L376-378: the width of the column of operations. -/
def opWidth (l : List Action) : Nat := l.foldl (fun w a => max w a.op.length) 14

/-- The loop of L382-423. -/
def printRows (repr : Action → Str) (w : Nat) : List Action → M Console Unit
  | [] => pure ()
  | a :: as => do
    print (py!"--> " ++ ljust w a.op ++ py!" : ")
    let t ← M.ofExcept (actionText repr a)
    print (t ++ py!"\n")
    printRows repr w as

/-- L344-425 `pretty_print_actions(section)`. -/
def prettyActions (repr : Action → Str) (E : Env Shared Actions) (fuel : Nat) (s : Str) : M Console Unit := do
  let _ ← onState (onObj (edGetItem E fuel s))
  let l ← onState (actionsOf s)
  print py!"Actions\n"
  print py!"=======\n"
  printRows repr (opWidth l) l

/-- The argument `envvar_filter`: None, a list whose entries are texts or (`none`) something else, or neither. -/
inductive FilterArg where
  | none
  | list (fs : List (Option Str))
  | other
  deriving DecidableEq

/-- L482-486: does some entry occur in the name? Entries are tried in order up to the first that occurs; one that is
not a text is a TypeError. -/
def filterHits : List (Option Str) → Str → Except PyExc Bool
  | [], _ => .ok false
  | none :: _, _ => .error .typeError
  | some f :: fs, k => if isSubstr f k = true then .ok true else filterHits fs k

/-- L490-496: what is printed about a variable when there is a filter. -/
def varText (only hit : Bool) (k v : Str) : Str :=
  if only = false ∨ hit = true then py!"[envvar]: " ++ k ++ (if hit = true then py!" = " ++ v else []) ++ py!"\n"
  else []

/-- The loop of L480-496 over `os.environ.items()`. The assignment of L488 makes `filtered_keys_only` False from then
on; it is done in every turn if there is no filter, before the variable is read. -/
def printVars (filter : FilterArg) : Bool → List (Str × Str) → M Console Unit
  | _, [] => pure ()
  | only, (k, v) :: rest =>
    match filter with
    | .list fs => do
      let hit ← M.ofExcept (filterHits fs k)
      print (varText only hit k v)
      printVars filter only rest
    | _ => do
      print (py!"[envvar]: " ++ k ++ py!" = " ++ v ++ py!"\n")
      printVars filter false rest

/-- L477-479: the banner. -/
def varsBanner : Str :=
  py!"+" ++ List.replicate 68 '=' ++ py!"+\n" ++ py!"|   P R I N T   E N V I R O N M E N T   V A R S\n" ++
    py!"+" ++ List.replicate 68 '=' ++ py!"+\n"

/-- L427-497 `pretty_print_envvars(envvar_filter, filtered_keys_only)`; `none` stands for a second argument that is
not a bool. Arguments of a wrong type are a CATASTROPHIC event with TypeError (L470-471), which is always raised. -/
def prettyEnvvars (filter : FilterArg) (only : Option Bool) : M Console Int :=
  match filter, only with
  | .other, _ => M.raise .typeError
  | _, none => M.raise .typeError
  | filter, some only => do
    print varsBanner
    let c ← M.read
    printVars filter only c.st.environ
    pure 0

end CPE.SetEnv
