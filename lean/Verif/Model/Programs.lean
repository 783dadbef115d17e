import Verif.Model.CommandLine
import Verif.Model.LoadEnv
import Verif.Model.GenOutput
/-
Model of the programs load_env.py (wip/loadenv/load_env.py, cited as LE) and gen_config.py (wip/genconfig/gen_config.py,
cited as GC) from the command line and the texts of the files to what they leave behind. The parts are in
`Verif/Model/CommandLine`, `TopLevel`, `IniText`, `LoadEnv` and `GenOutput`.
-/
namespace CPE.Cli
open CPE CPE.KW CPE.SetEnv

/-- What the programs are run with, apart from their words, the environment and the files: the surroundings of the tools,
`Path.resolve`, which words are negative numbers, the names under which files are known (a resolved path may belong to a
file that the shell knows by a relative path), what there is where no text file is, the files load-env.ini and
gen-config.ini, the temporary files (LE:317-330, GC:523-537), `gen_option_list` of SetProgramOptionsCMake on a loaded
config-specs.ini, `os.path.relpath`, and the recursion fuel. -/
structure Place where
  fuel : Nat
  host : Host
  sys : Sys
  resolve : Str → Str
  neg : Str → Bool
  key : Str → Str
  other : Str → FNode
  leIni : Str
  gcIni : Str
  tmp : Str
  out : Str
  loc : Str
  gen : Cfg → Str → Str → Out (List Str)
  relative : Str → Str

/-- The file system that belongs to `files`. -/
def Place.disk (P : Place) (files : Dict Str Str) : FS := fun p =>
  match Dict.get? files (P.key p) with
  | some t => .file t
  | none => P.other p

/-- A new ConfigParserEnhanced object on a file reads it at the first access (LE:98-106, KeywordParser.py:12-31,
ConfigParserEnhanced.py:225-292). -/
def readIni (fs : FS) (p : Str) : Out Cfg := ((topNew p).configdata fs).1

/-- The same as a step of a program. -/
def readStep {W : Type} (fs : FS) (p : Str) : M W Cfg := fun w => (readIni fs p, w)

/-- The files of load_env.py once read: supported-systems.ini, supported-envs.ini (at the path `p`) and
environment-specs.ini. -/
def Place.site (P : Place) (p : Str) (systems envs specs : Cfg) : Site where
  tool := { systems := systems, envs := envs, flags := emptyCfg, specs := emptyCfg, host := P.host, fuel := P.fuel }
  envsFile := P.relative p
  specs := specs
  sys := P.sys

/-- LE:530-543, after the object has been made. Files are read when they are first needed: with `--list-envs`
supported-systems.ini for the name of the system (LE:157-164), then supported-envs.ini (LE:175); otherwise first
environment-specs.ini, which is checked (LE:216-224). What has been computed is remembered, so that the last step begins with
what the steps before have done. -/
def leWork (P : Place) (fs : FS) (a : LeArgs) (f1 f2 f3 : Str) : M App Unit :=
  if a.listEnvs = true then do
    let c1 ← readStep fs f1
    let _ ← App.onNames (LE.getSystemName (P.site f2 c1 emptyCfg emptyCfg).tool)
    let c2 ← readStep fs f2
    App.main (P.site f2 c1 c2 emptyCfg) true P.tmp (a.output.map P.key) (a.location.map P.key)
  else do
    let c3 ← readStep fs f3
    App.loadOnce (P.site f2 emptyCfg emptyCfg c3)
    let c1 ← readStep fs f1
    let _ ← App.onNames (LE.getSystemName (P.site f2 c1 emptyCfg c3).tool)
    let c2 ← readStep fs f2
    App.main (P.site f2 c1 c2 c3) false P.tmp (a.output.map P.key) (a.location.map P.key)

/-- What a program leaves: its outcome, its environment, and the files. -/
structure Left where
  outcome : Out Unit
  environ : Environ
  files : Dict Str Str

/-- LE:526-547: the program load_env.py. -/
def leProgram (P : Place) (argv : List Str) (environ : Environ) (files : Dict Str Str) : Left :=
  match leArgs P.fuel (P.disk files) P.leIni P.resolve P.neg argv with
  | .ok (a, fs) =>
    let r := leWork P (P.disk files) a (fs.getD 0 []) (fs.getD 1 []) (fs.getD 2 []) (App.new a.build a.force environ files)
    { outcome := r.1, environ := r.2.environ, files := r.2.files }
  | .exc e => { outcome := .exc e, environ := environ, files := files }
  | .diverge => { outcome := .diverge, environ := environ, files := files }

/-- The files of gen_config.py once read: supported-config-flags.ini, config-specs.ini, and those of load_env.py. -/
def Place.genSite (P : Place) (A : GenArgs) (flags configs systems envs : Cfg) : GenSite where
  tool := { systems := systems, envs := envs, flags := flags, specs := configs, host := P.host, fuel := P.fuel }
  gen := P.gen configs
  args := A

/-- GC:261-267 `load_load_env`: the object LoadEnv is made with arguments; gives the files of it that are used. Simplification: a
build name or `--force` that LoadEnv reads otherwise than gen_config.py is not modelled. -/
def loadEnvFor (P : Place) (fs : FS) (A : GenArgs) : M Job (Str × Str) := fun j =>
  match leArgs P.fuel fs P.leIni P.resolve P.neg (loadEnvArgs A) with
  | .ok (a, l) =>
    if a.build = A.build ∧ a.force = A.force then (.ok (l.getD 0 [], l.getD 1 []), j)
    else (.exc (.user py!"NotModelled"), j)
  | .exc e => (.exc e, j)
  | .diverge => (.diverge, j)

/-- GC:52-62, 74-81, 177-188: before options can be generated, all files are read. Simplification: if one of them cannot be read
and something else is wrong too, the exception may be the other one. -/
def genSiteFor (P : Place) (fs : FS) (A : GenArgs) : M Job GenSite := do
  let cf ← readStep fs A.flagsFile
  let l ← loadEnvFor P fs A
  let cs ← readStep fs A.configsFile
  let c1 ← readStep fs l.1
  let c2 ← readStep fs l.2
  pure (P.genSite A cf cs c1 c2)

/-- GC:503-538, after the object has been made. -/
def genWork (P : Place) (fs : FS) (A : GenArgs) : M Job Unit :=
  if A.listFlags = true then do
    let cf ← readStep fs A.flagsFile
    Job.main (P.genSite A cf emptyCfg emptyCfg emptyCfg) P.out P.loc
  else if A.listConfigs = true then do
    let l ← loadEnvFor P fs A
    let c1 ← readStep fs l.1
    Job.onGc GC.loadLE
    let _ ← Job.onGc (GC.onLE (LE.getSystemName (P.genSite A emptyCfg emptyCfg c1 emptyCfg).tool))
    let cs ← readStep fs A.configsFile
    Job.main (P.genSite A emptyCfg cs c1 emptyCfg) P.out P.loc
  else match A.saveArgs, A.fragment with
    | some _, _ => Job.main (P.genSite A emptyCfg emptyCfg emptyCfg emptyCfg) P.out P.loc
    | none, some _ => do
      let W ← genSiteFor P fs A
      Job.main W P.out P.loc
    | none, none => do
      Job.put P.out []
      let W ← genSiteFor P fs A
      Job.main W P.out P.loc

/-- The paths that are written to, by the names under which the files are known. -/
def Place.known (P : Place) (A : GenArgs) : GenArgs :=
  { A with fragment := A.fragment.map P.key, saveArgs := A.saveArgs.map P.key }

/-- GC:499-542: the program gen_config.py; `input` is what the user is going to type. -/
def gcProgram (P : Place) (argv : List Str) (files : Dict Str Str) (input : List Str) : Out Unit × Dict Str Str :=
  match (genArgs P.fuel (P.disk files) P.gcIni P.resolve P.neg argv GCTop.new).1 with
  | .ok A =>
    let r := genWork P (P.disk files) (P.known A) (Job.new (P.known A) files input)
    (r.1, r.2.files)
  | .exc e => (.exc e, files)
  | .diverge => (.diverge, files)

end CPE.Cli
