import Verif.Model.GenConfig
import Verif.Model.Messages
/-
Model of what GenConfig produces (wip/genconfig/gen_config.py, cited as GC): the flags for the command line of CMake,
the fragment file, the arguments for LoadEnv, and `main`.

SetProgramOptionsCMake is not part of the code base: `gen_option_list(section, generator)` is an arbitrary function of
the section and the generator. The configuration files are given (see `Verif/Model/TopLevel`). Files are regular files,
all directories exist, and writing succeeds. Of the console output only the two lists are modelled.
-/
namespace CPE.KW
open CPE CPE.SetEnv

/-- The command line (GC:343-379 `args`, GC:429-496), after the paths have been resolved. -/
structure GenArgs where
  build : Str
  force : Bool
  ciMode : Bool
  listConfigs : Bool
  listFlags : Bool
  fragment : Option Str
  yes : Bool
  saveArgs : Option Str
  systemsFile : Str
  envsFile : Str
  specsFile : Str
  flagsFile : Str
  configsFile : Str

/-- What a GenConfig object is run with: the files, `gen_option_list`, and the command line. -/
structure GenSite where
  tool : Tool
  gen : Str → Str → Out (List Str)
  args : GenArgs

/-- A GenConfig object with `_generated_config_flags_str` and `_cmake_fragment_file`, the files that it sees, and the
lines that the user is going to type. -/
structure Job where
  gc : GC
  flags : Option Str
  fragmentFile : Option Str
  files : Dict Str Str
  input : List Str

/-- GC:29-50 `__init__`. -/
def Job.new (A : GenArgs) (files : Dict Str Str) (input : List Str) : Job :=
  { gc := GC.new A.build A.force, flags := none, fragmentFile := none, files := files, input := input }

/-- Code on the names. -/
def Job.onGc {α : Type} (m : M GC α) : M Job α := fun j => ((m j.gc).1, { j with gc := (m j.gc).2 })

/-- The first character of `response.lower()`, as far as it matters (GC:92, GC:97): no character outside ASCII has a lower
case form that starts with y or n. -/
def lowerFirst (c : Char) : Char := if c = 'Y' then 'y' else if c = 'N' then 'n' else c

/-- GC:86-99: the question, until the answer starts with y or n: whether to write; no more input is an EOFError, and an
empty line has no first character (IndexError). -/
def ask : List Str → Out Bool × List Str
  | [] => (.exc (.user py!"EOFError"), [])
  | [] :: rs => (.exc .indexError, rs)
  | (c :: _) :: rs =>
    if lowerFirst c = 'y' then (.ok true, rs)
    else if lowerFirst c = 'n' then (.ok false, rs)
    else ask rs

/-- GC:84-101: a file that is there is removed, if the user agrees. -/
def Job.makeRoom (yes : Bool) (file : Str) : M Job Unit := fun j =>
  if (Dict.get? j.files file).isSome = true then
    if yes = true then (.ok (), { j with files := dictDel j.files file })
    else match ask j.input with
      | (.ok true, rest) => (.ok (), { j with input := rest, files := dictDel j.files file })
      | (.ok false, rest) => (.exc .systemExit, { j with input := rest })
      | (.exc e, rest) => (.exc e, { j with input := rest })
      | (.diverge, rest) => (.diverge, { j with input := rest })
  else (.ok (), j)

/-- Write a file. -/
def Job.put (file text : Str) : M Job Unit := M.modify fun j => { j with files := Dict.set j.files file text }

section
variable (W : GenSite)

/-- GC:55-62, GC:74-81: the options for the configuration. -/
def Job.options (generator : Str) : M Job (List Str) := do
  let c ← Job.onGc (GC.configForOptions W.tool)
  fun j => (W.gen c generator, j)

/-- GC:52-65 `generated_config_flags_str`. -/
def Job.flagsStr : M Job Str := do
  let j ← M.read
  match j.flags with
  | some s => pure s
  | none => do
    let os ← Job.options W py!"bash"
    let s := joinStr py!" \\\n    " os
    M.modify fun j => { j with flags := some s }
    pure s

/-- GC:83-111: the file is written. Without `--cmake-fragment` there is no path (`None.exists()`). -/
def Job.putFragment (os : List Str) : M Job Str :=
  match W.args.fragment with
  | none => M.raise .attributeError
  | some file => do
    Job.makeRoom W.args.yes file
    Job.put file (joinStr py!"\n" os)
    M.modify fun j => { j with fragmentFile := some file }
    pure file

/-- GC:67-111 `write_cmake_fragment`. -/
def Job.writeFragment : M Job Str := do
  let j ← M.read
  match j.fragmentFile with
  | some f => pure f
  | none => do
    let os ← Job.options W py!"cmake_fragment"
    Job.putFragment W os

/-- GC:269-280 `load_env_args`. -/
def loadEnvArgs (A : GenArgs) : List Str :=
  [py!"--supported-systems", A.systemsFile, py!"--supported-envs", A.envsFile, py!"--environment-specs", A.specsFile] ++
  (if A.force = true then [py!"--force"] else []) ++
  (if A.ciMode = true then [py!"--ci-mode"] else []) ++
  [A.build]

/-- GC:121-127: the list of the flags. -/
def Job.flagsText : M Job Str := do
  Job.onGc (GC.loadCkp W.tool)
  Job.onGc (GC.onCkp (CKP.flagsMsg (cls W.tool.flags) W.tool.fuel W.args.flagsFile py!"Please select one of the following." py!"INFO"))

/-- GC:113-128 `list_config_flags`: if the list can be made, the program ends with it. -/
def Job.listFlags : M Job Unit := do
  let _ ← Job.flagsText W
  M.raise .systemExit

/-- GC:139-153: the list of the configurations. -/
def Job.configsText : M Job Str := do
  let l ← Job.onGc (GC.listConfigs W.tool)
  pure (msgForList (py!"Please select one of the following complete configurations from\n" ++ W.args.configsFile ++ py!"\n\n") l py!"INFO" py!"\n")

/-- GC:130-154 `list_configs`: if the list can be made, it is printed and the program ends. -/
def Job.listConfigs : M Job Unit := do
  let _ ← Job.configsText W
  M.raise .systemExit

/-- GC:526-538: the flags are written to the file `out`, which is made before they are computed, and the path of that
file to the file `loc`. -/
def Job.writeFlags (out loc : Str) : M Job Unit := do
  Job.put out []
  let s ← Job.flagsStr W
  Job.put out s
  Job.put loc out

/-- GC:499-538 `main`, after the object has been made; `out` and `loc` are the two files in /tmp/$USER. -/
def Job.main (out loc : Str) : M Job Unit :=
  if W.args.listFlags = true then Job.listFlags W
  else if W.args.listConfigs = true then Job.listConfigs W
  else match W.args.saveArgs with
    | some f => Job.put f (joinStr py!" " (loadEnvArgs W.args))
    | none => match W.args.fragment with
      | some _ => do
        let _ ← Job.writeFragment W
        pure ()
      | none => Job.writeFlags W out loc

end
end CPE.KW
