import Verif.Model.Object
import Verif.Model.SetEnvPrint
/-
Model of the life of a `SetEnvironment` object (wip/setenvironment/src/setenvironment/SetEnvironment.py:237-664):
`Model/SetEnvironment` and `Model/SetEnvPrint` describe its methods once the files have been read; here the files, the
delimiters, the exception level and `actions` may be assigned at any time, and the files on disk may change between
operations. Line numbers refer to SetEnvironment.py.
-/
namespace CPE.SetEnv

/-- The class (L237-1098) as an environment for `Model/Object`, which puts the configuration and the exception level
in. -/
def cls (st : Settings) : Env Shared Actions := env emptyCfg st

/-- An object with its files and delimiters, the environment of the process, the scripts it has written and what it has
printed. -/
structure Life where
  full : Full Shared Actions
  environ : Environ
  scripts : Dict Str Str
  stdout : Str

/-- L256-258: a new object, no file given. -/
def Life.new (st : Settings) (environ : Environ) : Life :=
  { full := { Full.new (cls st) [] with level := st.level }, environ := environ, scripts := [], stdout := [] }

/-- Run code of the base class. -/
def onFull {α : Type} (m : M (Full Shared Actions) α) : M Life α := fun f =>
  ((m f.full).1, { f with full := (m f.full).2 })

/-- Run code of `Model/SetEnvPrint`, which does not touch files, delimiters and level. -/
def onConsole {α : Type} (m : M Console α) : M Life α := fun f =>
  let r := m { st := { obj := f.full.obj, environ := f.environ, files := f.scripts }, stdout := f.stdout }
  (r.1, { full := { f.full with obj := r.2.st.obj }, environ := r.2.st.environ, scripts := r.2.st.files,
          stdout := r.2.stdout })

/-- The settings and methods as the code of this class sees them; it does not look at the configuration. -/
def Life.env (st : Settings) (f : Life) : Env Shared Actions := f.full.env (cls st) emptyCfg

section
variable (sys : Sys) (repr : Action → Str) (st : Settings) (fuel : Nat) (fs : FS)

/-- L323-327: `try: self.configparserenhanceddata[section] except KeyError`. The message of L327 reads `inifilepath`,
which is a ValueError if it was never assigned (ConfigParserEnhanced.py:180-190). -/
def lookForApply (s : Str) : M Life Unit := fun f =>
  match f.full.runOp (cls st) fuel fs (.getItem s) with
  | (.ok _, g) => (.ok (), { f with full := g })
  | (.exc .keyError, g) => (if g.files = none then .exc .valueError else .ok (), { f with full := g })
  | (.exc e, g) => (.exc e, { f with full := g })
  | (.diverge, g) => (.diverge, { f with full := g })

/-- L303-342 `apply(section)`. -/
def Life.apply (s : Str) : M Life Int := do
  lookForApply st fuel fs s
  let f ← M.read
  onConsole (onState (do
    let l ← actionsOf s
    applyLoop sys (f.env st) l 0))

/-- L344-425 `pretty_print_actions(section)`. -/
def Life.listActions (s : Str) : M Life Unit := do
  let _ ← onFull (Full.runOp (cls st) fuel fs (.getItem s))
  onConsole (do
    let l ← onState (actionsOf s)
    print py!"Actions\n"
    print py!"=======\n"
    printRows repr (opWidth l) l)

/-- L636-638: parse the section if it has no list. -/
def Life.ensureList (s : Str) : M Life Unit := do
  let f ← M.read
  if Dict.mem f.full.obj.self s = false then do
    let _ ← onFull (Full.runOp (cls st) fuel fs (.parseSection s true true))
    pure ()
  else pure ()

/-- L565-664 `generate_actions_script(section, incl_hdr, incl_body, incl_shebang, interp)`. -/
def Life.script (s : Str) (hdr body sheb : Bool) (interp : Str) : M Life Str := do
  let f ← M.read
  if interp ≠ py!"bash" ∧ interp ≠ py!"python" then do
    onConsole (onState (onObj (liftW (ecEvent (f.env st) .serious .valueError))))
    pure []
  else do
    let top :=
      if hdr = true then
        (if sheb = true then shebang interp else []) ++
          (if interp = py!"bash" then sys.bashHeader else sys.pythonHeader) ++ py!"\n\n"
      else []
    if body = true then do
      let top := if sheb = true ∧ hdr = false then top ++ shebang interp else top
      Life.ensureList st fuel fs s
      let lines ← onConsole (onState (do
        let l ← actionsOf s
        onObj (liftW (bodyLines (f.env st) interp l))))
      pure (top ++ bodyHeader ++ lines ++ py!"\n\n")
    else pure top

/-- L499-563 `write_actions_to_file` (opening the file for writing succeeds). -/
def Life.write (file s : Str) (hdr body sheb : Bool) (interp : Str) : M Life Int := do
  let f ← M.read
  if interp ≠ py!"bash" ∧ interp ≠ py!"python" then do
    onConsole (onState (onObj (liftW (ecEvent (f.env st) .serious .valueError))))
    pure 1
  else do
    let text ← Life.script sys st fuel fs s hdr body sheb interp
    M.modify fun f => { f with scripts := Dict.set f.scripts file text }
    pure 0

/-- L292-297: assignment to `actions`; `none` is a value that is no dict (ExceptionControl aside,
`_validate_parameter` raises TypeError, ConfigParserEnhanced.py:1415-1440). The dict is a value here: when the client
edits the dict it has assigned, or the one that `actions` returns, that is an assignment of the edited dict. Lists hold
actions with the keys that `Action` knows. -/
def Life.setActions (v : Option Actions) : M Life Unit :=
  match v with
  | none => M.raise .typeError
  | some a => M.modify fun f => { f with full := { f.full with obj := { f.full.obj with self := a } } }

end

/-- Everything a client can do with an object. -/
inductive LOp where
  | base (op : FOp)
  | actions
  | setActions (v : Option Actions)
  | apply (s : Str)
  | listActions (s : Str)
  | listVars (filter : FilterArg) (only : Option Bool)
  | script (s : Str) (hdr body sheb : Bool) (interp : Str)
  | write (file s : Str) (hdr body sheb : Bool) (interp : Str)
  deriving DecidableEq

/-- What an operation gives back. -/
inductive LVal where
  | base (v : FVal Shared)
  | actions (a : Actions)
  | unit
  | int (i : Int)
  | text (t : Str)
  deriving DecidableEq

/-- One operation, with the files on disk as they are at that moment. -/
def LOp.exec (sys : Sys) (repr : Action → Str) (st : Settings) (fuel : Nat) (fs : FS) : LOp → M Life LVal
  | .base op => do let v ← onFull (op.exec (cls st) fuel fs); pure (.base v)
  | .actions => do let f ← M.read; pure (.actions f.full.obj.self)
  | .setActions v => do Life.setActions v; pure .unit
  | .apply s => do let i ← Life.apply sys st fuel fs s; pure (.int i)
  | .listActions s => do Life.listActions repr st fuel fs s; pure .unit
  | .listVars filter only => do let i ← onConsole (prettyEnvvars filter only); pure (.int i)
  | .script s hdr body sheb interp => do let t ← Life.script sys st fuel fs s hdr body sheb interp; pure (.text t)
  | .write file s hdr body sheb interp => do
    let i ← Life.write sys st fuel fs file s hdr body sheb interp
    pure (.int i)

/-- A history: operations one after the other, exceptions being caught by the client. -/
def LOp.run (sys : Sys) (repr : Action → Str) (st : Settings) (fuel : Nat) : List (FS × LOp) → Life → Life
  | [], f => f
  | (fs, op) :: ops, f => LOp.run sys repr st fuel ops (op.exec sys repr st fuel fs f).2

end CPE.SetEnv
