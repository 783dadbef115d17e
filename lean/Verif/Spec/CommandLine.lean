import Verif.Model.CommandLine
/-
C72: what a command line of the tools means.

An option is written by its name, or by the beginning of a long name that no other name shares. Its value is the next
word, or is joined to it with an equals sign, or, for a short name, directly. Short names may share a dash.
-/
namespace CPE.Cli
open CPE CPE.KW

/-- The options of load-env, with what they are called in the results. -/
def leUsage : Table :=
  [ ⟨[py!"-h", py!"--help"], py!"help", .help⟩,
    ⟨[py!"-l", py!"--list-envs"], py!"list_envs", .flag true⟩,
    ⟨[py!"-o", py!"--output"], py!"output", .store⟩,
    ⟨[py!"-f", py!"--force"], py!"force", .flag true⟩,
    ⟨[py!"--supported-systems"], py!"supported_systems_file", .store⟩,
    ⟨[py!"--supported-envs"], py!"supported_envs_file", .store⟩,
    ⟨[py!"--environment-specs"], py!"environment_specs_file", .store⟩,
    ⟨[py!"--ci-mode"], py!"do_not_use_this_ci_mode_argument_in_load_env_python_code", .flag false⟩,
    ⟨[py!"--load-matching-env-location"], py!"load_matching_env_location", .store⟩ ]

/-- The options of gen-config. -/
def gcUsage : Table :=
  [ ⟨[py!"-h", py!"--help"], py!"help", .help⟩,
    ⟨[py!"-l", py!"--list-configs"], py!"list_configs", .flag true⟩,
    ⟨[py!"--list-config-flags"], py!"list_config_flags", .flag true⟩,
    ⟨[py!"--cmake-fragment"], py!"cmake_fragment", .store⟩,
    ⟨[py!"-f", py!"--force"], py!"force", .flag true⟩,
    ⟨[py!"-y", py!"--yes"], py!"yes", .flag true⟩,
    ⟨[py!"--ci-mode"], py!"ci_mode", .flag true⟩,
    ⟨[py!"--save-load-env-args"], py!"save_load_env_args", .store⟩,
    ⟨[py!"--supported-config-flags"], py!"supported_config_flags_file", .store⟩,
    ⟨[py!"--config-specs"], py!"config_specs_file", .store⟩,
    ⟨[py!"--supported-systems"], py!"supported_systems_file", .store⟩,
    ⟨[py!"--supported-envs"], py!"supported_envs_file", .store⟩,
    ⟨[py!"--environment-specs"], py!"environment_specs_file", .store⟩ ]

/-- `s` is a name of the option `o`. -/
def Named (T : Table) (s : Str) (o : Opt) : Prop := o ∈ T ∧ s ∈ o.names

/-- The text `s` stands for the option `o`: it is a name, or the beginning of one long name only. -/
def Spells (T : Table) (s : Str) (o : Opt) : Prop :=
  Named T s o ∨
  (py!"--" <+: s ∧ (∀ o', ¬ Named T s o') ∧
    ∃ n, Named T n o ∧ s <+: n ∧ ∀ n' o', Named T n' o' → s <+: n' → n' = n)

/-- A word that starts like an option: it has two dashes, and up to an equals sign it is the beginning of a long name; or
it has one dash, and starts with a short name. -/
def Resembles (T : Table) (w : Str) : Prop :=
  (∃ s n o, Named T n o ∧ py!"--" <+: s ∧ s <+: n ∧ '=' ∉ s ∧ (w = s ∨ ∃ v, w = s ++ '=' :: v)) ∨
  (∃ c v o, c ≠ '-' ∧ Named T ['-', c] o ∧ w = '-' :: c :: v)

/-- A word that is not an option: it has no dash in front, or is only a dash, or is a negative number or has a space and
does not start like an option. -/
def Plain (neg : Str → Bool) (T : Table) (w : Str) : Prop :=
  w.head? ≠ some '-' ∨ w = py!"-" ∨ (¬ Resembles T w ∧ (neg w = true ∨ ' ' ∈ w))

/-- What the words of a command line say, in order. -/
inductive Reading (neg : Str → Bool) (T : Table) : List Str → List Item → Prop
  | done : Reading neg T [] []
  /-- A word on its own. -/
  | word {w ws is} : Plain neg T w → Reading neg T ws is → Reading neg T (w :: ws) (.word w :: is)
  /-- An option without a value. -/
  | flag {s o ws is} : Spells T s o → o.act ≠ .store → Reading neg T ws is → Reading neg T (s :: ws) (.act o none :: is)
  /-- `--output FILE` -/
  | next {s o v ws is} : Spells T s o → o.act = .store → Plain neg T v → Reading neg T ws is →
      Reading neg T (s :: v :: ws) (.act o (some v) :: is)
  /-- `--output=FILE` -/
  | joined {s o v ws is} : Spells T s o → o.act = .store → Reading neg T ws is →
      Reading neg T ((s ++ '=' :: v) :: ws) (.act o (some v) :: is)
  /-- `-oFILE` -/
  | attached {c o x v ws is} : Named T ['-', c] o → o.act = .store → x ≠ '=' → Reading neg T ws is →
      Reading neg T (('-' :: c :: x :: v) :: ws) (.act o (some (x :: v)) :: is)
  /-- `-fl` for `-f -l`, `-foFILE` for `-f -oFILE` -/
  | cluster {c d o o' r ws is} : Named T ['-', c] o → o.act ≠ .store → Named T ['-', d] o' → r.head? ≠ some '=' →
      Reading neg T (('-' :: d :: r) :: ws) is → Reading neg T (('-' :: c :: d :: r) :: ws) (.act o none :: is)

/-- The words on their own. -/
def wordsOf : List Item → List Str
  | [] => []
  | .word w :: is => w :: wordsOf is
  | _ :: is => wordsOf is

/-- One build name at most, and nobody asks for help. -/
def Usable (is : List Item) : Prop :=
  (wordsOf is).length ≤ 1 ∧ ∀ o v, Item.act o v ∈ is → o.act ≠ .help

/-- The option is there. -/
def switched (d : Str) : List Item → Bool
  | [] => false
  | .act o _ :: is => decide (o.dest = d) || switched d is
  | _ :: is => switched d is

/-- The last value given for it. -/
def lastValue (d : Str) : List Item → Option Str
  | [] => none
  | .act o (some v) :: is => match lastValue d is with
    | some x => some x
    | none => if o.dest = d then some v else none
  | _ :: is => lastValue d is

/-- What load-env gets from it. Values are paths. -/
def leMeaning (resolve : Str → Str) (is : List Item) : LeArgs where
  build := (wordsOf is).headD []
  listEnvs := switched py!"list_envs" is
  output := (lastValue py!"output" is).map resolve
  force := switched py!"force" is
  systems := (lastValue py!"supported_systems_file" is).map resolve
  envs := (lastValue py!"supported_envs_file" is).map resolve
  specs := (lastValue py!"environment_specs_file" is).map resolve
  location := (lastValue py!"load_matching_env_location" is).map resolve

/-- What gen-config gets from it. -/
def gcMeaning (resolve : Str → Str) (is : List Item) : GcArgs where
  build := (wordsOf is).headD []
  listConfigs := switched py!"list_configs" is
  listFlags := switched py!"list_config_flags" is
  fragment := (lastValue py!"cmake_fragment" is).map resolve
  force := switched py!"force" is
  yes := switched py!"yes" is
  ciMode := switched py!"ci_mode" is
  saveArgs := (lastValue py!"save_load_env_args" is).map resolve
  flagsFile := (lastValue py!"supported_config_flags_file" is).map resolve
  configsFile := (lastValue py!"config_specs_file" is).map resolve
  systems := (lastValue py!"supported_systems_file" is).map resolve
  envs := (lastValue py!"supported_envs_file" is).map resolve
  specs := (lastValue py!"environment_specs_file" is).map resolve

/-- What load-env has to get from gen-config: the build name, `--force` and the three files, and nothing else. -/
def handed (resolve : Str → Str) (A : GenArgs) : LeArgs where
  build := A.build
  listEnvs := false
  output := none
  force := A.force
  systems := some (resolve A.systemsFile)
  envs := some (resolve A.envsFile)
  specs := some (resolve A.specsFile)
  location := none

/-- A word outside the model: `--`, or a single dash with an equals sign somewhere behind it. -/
def Odd (w : Str) : Prop := w = py!"--" ∨ ∃ c v, c ≠ '-' ∧ w = '-' :: c :: v ∧ '=' ∈ v

/-- No option shares its dest. -/
def Apart (is js : List Item) : Prop :=
  (∀ o v o' v', Item.act o v ∈ is → Item.act o' v' ∈ js → o.dest ≠ o'.dest) ∧ (wordsOf is = [] ∨ wordsOf js = [])

end CPE.Cli
