import Verif.Model.GenConfig
import Verif.Model.BashScript
import Verif.Model.Messages
/-
Model of the part of LoadEnv that applies an environment and writes a script for it:
  wip/loadenv/load_env.py          (cited as LE)
  wip/loadenv/load-env.sh          (cited as SH)

The files are given, loaded without error (see `Verif/Model/TopLevel` for how they are found); writing a file succeeds.
Of the console output only the list of environments is modelled.
-/
namespace CPE.KW
open CPE CPE.SetEnv

/-- What LoadEnv is run with: the files of the tools, the relative path of supported-envs.ini, environment-specs.ini, and what SetEnvironment is run with. -/
structure Site where
  tool : Tool
  envsFile : Str
  specs : Cfg
  sys : Sys

/-- LE:216-223: the SetEnvironment object on environment-specs.ini, with `exception_control_level = 5`. -/
def Site.env (W : Site) : Env Shared Actions := SetEnv.env W.specs { level := 5 }

/-- A LoadEnv object with its attribute `set_environment`, the environment of the process, and the files it writes. -/
structure App where
  le : LE
  setEnvironment : Option (Obj Shared Actions)
  environ : Environ
  files : Dict Str Str

/-- LE:109-129 `__init__`. -/
def App.new (build : Str) (force : Bool) (environ : Environ) (files : Dict Str Str) : App :=
  { le := LE.new build force, setEnvironment := none, environ := environ, files := files }

section
variable (W : Site)

/-- Code on the names. -/
def App.onNames {α : Type} (m : M LE α) : M App α := fun a => ((m a.le).1, { a with le := (m a.le).2 })

/-- Code on the attribute `set_environment`; a new object if there is none (LE:216-217). -/
def App.onSet {α : Type} (m : M State α) : M App α := fun a =>
  let r := m { obj := a.setEnvironment.getD (Obj.fresh W.env []), environ := a.environ, files := a.files }
  (r.1, { a with setEnvironment := some r.2.obj, environ := r.2.environ, files := r.2.files })

/-- LE:210-224 `load_set_environment`. -/
def App.load : M App Unit := do
  let _ ← App.onSet W (onObj (assertFile W.env W.tool.fuel [] []))
  pure ()

/-- `if self.set_environment is None: self.load_set_environment()` (LE:234-235, 260-261). The attribute is assigned
before the check, so a check that fails is not repeated. -/
def App.loadOnce : M App Unit := do
  let a ← M.read
  if a.setEnvironment.isSome = true then pure () else App.load W

/-- LE:227-247 `apply_env`. -/
def App.applyEnv : M App Unit := do
  App.loadOnce W
  let q ← App.onNames (LE.getParsedEnvName W.tool)
  let r ← App.onSet W (SetEnv.apply W.sys W.env W.tool.fuel q)
  if r ≠ 0 then M.raise .runtimeError else pure ()

/-- LE:267-277: one file is written; an old file of that name is removed first. -/
def App.writeOne (file : Str) : M App Unit := do
  M.modify fun a => { a with files := dictDel a.files file }
  let q ← App.onNames (LE.getParsedEnvName W.tool)
  let _ ← App.onSet W (writeScript W.sys W.env W.tool.fuel file q true true true py!"bash")
  let q ← App.onNames (LE.getParsedEnvName W.tool)
  let a ← M.read
  let text := (Dict.get? a.files file).getD [] ++ py!"export LOADED_ENV_NAME=" ++ q
  M.modify fun a => { a with files := Dict.set a.files file text }

/-- LE:250-279 `write_load_matching_env`; `tmp` is `tmp_load_matching_env_file` (LE:317-330), `output` is what the
command line says. -/
def App.write (tmp : Str) (output : Option Str) : M App Str := do
  App.loadOnce W
  M.forEach (tmp :: output.toList) (App.writeOne W)
  pure (output.getD tmp)

/-- LE:180-193 `list_envs`: if the list can be made, it is printed and the program ends. -/
def App.listEnvs : M App Unit := do
  let _ ← App.onNames (LE.envsText W.tool W.envsFile)
  M.raise .systemExit

/-- LE:541-543, the end of `main`: the path of the script is written to the file that load-env.sh asks for
(`--load-matching-env-location`). -/
def App.tellWhere (tmp : Str) (location : Option Str) : M App Unit :=
  match location with
  | none => pure ()
  | some f => M.modify fun a => { a with files := Dict.set a.files f tmp }

/-- LE:530-543 `main`, after the object has been made. -/
def App.main (list : Bool) (tmp : Str) (output location : Option Str) : M App Unit := do
  if list = true then App.listEnvs W
  else do
    App.applyEnv W
    let _ ← App.onNames (LE.getParsedEnvName W.tool)
    let _ ← App.write W tmp output
    App.tellWhere tmp location

/-- LE:137-149: assignment to `build_name`. `set_environment` stays. -/
def App.setBuildName (b : Str) : M App Unit := App.onNames (LE.setBuildName b)

end

/-- `source` of a script (SH:124, SH:145): its first line is a comment, the header defines the functions of
`Verif/Model/BashScript`, and the rest is a list of commands. Simplification: a text that does not start with the header
is not modelled. -/
def source (tools : Bash.Tools) (header text : Str) : M Environ Unit :=
  match List.isPrefixOf? (shebang py!"bash" ++ header) text with
  | none => Bash.notModelled
  | some rest => Bash.runLines tools (lines rest)

end CPE.KW
