import Verif.Model.Programs
import Verif.Props.CommandLine
import Verif.Props.Scripts
/-
Specification for the programs load_env.py and gen_config.py: which files they work with, and how a machine runs them.
-/
namespace CPE.Cli
open CPE CPE.KW CPE.KW.Script CPE.KW.Spec CPE.SetEnv CPE.Props
open CPE.Spec hiding Item

/-- The file at `p` is a text that says `doc`. -/
def HasDoc (fs : FS) (p : Str) (doc : Doc) : Prop := ∃ text, fs p = .file text ∧ Says ['=', ':'] text doc ∧ doc.Strict

/-- The configuration that a document stands for. -/
def confOf (doc : Doc) : Cfg := doc.cfg py!"CONFIGPARSERENHANCED_COMMON"

/-- The file at `ini` has the sections `ss`, each of them can be resolved, and the options `wanted` name files (files that are
there, if `must`). -/
structure TopDoc (n : Nat) (fs : FS) (ini : Str) (must : Bool) (ss : List Str) (wanted : List (Str × Str)) (doc : Doc) : Prop where
  hasDoc : HasDoc fs ini doc
  fuel : (confOf doc).sectionNames.length + 3 ≤ n
  apart : DefaultApart (confOf doc)
  sections : ∀ s ∈ ss, s ∈ (confOf doc).sectionNames ∧ Sound (baseEnv (confOf doc) 0) s
  names : NamesFiles (baseEnv (confOf doc) 0) fs ini must wanted

/-- load_env.py works with the files `f1`, `f2` and `f3`: those of the command line, otherwise those of load-env.ini. -/
structure LeFiles (P : Place) (fs : FS) (is : List Item) (f1 f2 f3 : Str) (doc : Doc) : Prop
    extends TopDoc P.fuel fs P.leIni false loadEnvSections loadEnvFiles doc where
  systems : Chosen (baseEnv (confOf doc) 0) P.leIni P.resolve (fileOption P.resolve is) py!"load-env" py!"supported-systems" f1
  envs : Chosen (baseEnv (confOf doc) 0) P.leIni P.resolve (fileOption P.resolve is) py!"load-env" py!"supported-envs" f2
  specs : Chosen (baseEnv (confOf doc) 0) P.leIni P.resolve (fileOption P.resolve is) py!"load-env" py!"environment-specs" f3

/-- What load_env.py is run with if its files (supported-envs.ini at the path `p`) say this. -/
def siteOf (P : Place) (p : Str) (systems envs specs : Doc) : Site where
  tool := { systems := confOf systems, envs := confOf envs, flags := emptyCfg, specs := emptyCfg, host := P.host, fuel := P.fuel }
  envsFile := P.relative p
  specs := confOf specs
  sys := P.sys

/-- The machine runs load_env.py: it leaves the files that the program leaves, and the status of an accepted command line
without `--list-envs` is 0 if and only if the program comes to its end. -/
def HasLoadEnv (W : Machine) (P : Place) : Prop :=
  ∀ ws env files, (W.run ([py!"python3", py!"-E", py!"-s", W.loadDir ++ py!"/load_env.py"] ++ ws) env files).2 = (leProgram P ws env files).files ∧
    ∀ is, Reading P.neg leUsage ws is → Usable is → switched py!"list_envs" is = false →
      ((W.run ([py!"python3", py!"-E", py!"-s", W.loadDir ++ py!"/load_env.py"] ++ ws) env files).1 = 0 ↔
        (leProgram P ws env files).outcome = .ok ())

/-! ### gen_config.py -/

/-- gen_config.py works with the files `g1` (flags), `g2` (configurations), `f1`, `f2` and `f3`: those of the command line, otherwise
those of gen-config.ini, which all have to be there. -/
structure GcFiles (P : Place) (fs : FS) (is : List Item) (g1 g2 f1 f2 f3 : Str) (doc : Doc) : Prop
    extends TopDoc P.fuel fs P.gcIni true genConfigSections genConfigFiles doc where
  anchored : Anchored P.gcIni
  flags : Chosen (baseEnv (confOf doc) 0) P.gcIni P.resolve (fileOption P.resolve is) py!"gen-config" py!"supported-config-flags" g1
  configs : Chosen (baseEnv (confOf doc) 0) P.gcIni P.resolve (fileOption P.resolve is) py!"gen-config" py!"config-specs" g2
  systems : Chosen (baseEnv (confOf doc) 0) P.gcIni P.resolve (fileOption P.resolve is) py!"load-env" py!"supported-systems" f1
  envs : Chosen (baseEnv (confOf doc) 0) P.gcIni P.resolve (fileOption P.resolve is) py!"load-env" py!"supported-envs" f2
  specs : Chosen (baseEnv (confOf doc) 0) P.gcIni P.resolve (fileOption P.resolve is) py!"load-env" py!"environment-specs" f3

/-- What is given for an option that names a file to be written. -/
def target (P : Place) (d : Str) (is : List Item) : Option Str := (lastValue d is).map fun x => P.key (P.resolve x)

/-- What a command line of gen_config.py asks for. -/
def asked (P : Place) (is : List Item) (g1 g2 f1 f2 f3 : Str) : GenArgs where
  build := (wordsOf is).headD []
  force := switched py!"force" is
  ciMode := switched py!"ci_mode" is
  listConfigs := switched py!"list_configs" is
  listFlags := switched py!"list_config_flags" is
  fragment := target P py!"cmake_fragment" is
  yes := switched py!"yes" is
  saveArgs := target P py!"save_load_env_args" is
  flagsFile := g1
  configsFile := g2
  systemsFile := f1
  envsFile := f2
  specsFile := f3

/-- What gen_config.py is run with if its files say this. -/
def toolOf (P : Place) (flags configs systems envs : Doc) : Tool :=
  { systems := confOf systems, envs := confOf envs, flags := confOf flags, specs := confOf configs, host := P.host, fuel := P.fuel }

/-- The same with the options of SetProgramOptionsCMake and the command line. -/
def genSiteOf (P : Place) (A : GenArgs) (flags configs systems envs : Doc) : GenSite where
  tool := toolOf P flags configs systems envs
  gen := P.gen (confOf configs)
  args := A

/-- gen_config.py can make an object LoadEnv with the same build name and files: load-env.ini is as it has to be, and LoadEnv
does not take the build name or a path for an option, nor changes a path. -/
structure Hands (P : Place) (fs : FS) (build f1 f2 f3 : Str) (doc : Doc) : Prop where
  top : TopDoc P.fuel fs P.leIni false loadEnvSections loadEnvFiles doc
  build : Plain P.neg leUsage build
  files : ∀ f ∈ [f1, f2, f3], Plain P.neg leUsage f ∧ P.resolve f = f

/-- The machine runs gen_config.py (and the user types what is in `input`). -/
def HasGenConfig (W : Machine) (P : Place) (input : List Str) : Prop :=
  ∀ ws env files, (W.run ([py!"python3", py!"-E", py!"-s", W.genDir ++ py!"/gen_config.py"] ++ ws) env files).2 = (gcProgram P ws files input).2 ∧
    ∀ is, Reading P.neg gcUsage ws is → Usable is → switched py!"list_configs" is = false → switched py!"list_config_flags" is = false →
      lastValue py!"cmake_fragment" is = none →
      ((W.run ([py!"python3", py!"-E", py!"-s", W.genDir ++ py!"/gen_config.py"] ++ ws) env files).1 = 0 ↔ (gcProgram P ws files input).1 = .ok ())

end CPE.Cli
