import Verif.Model.Messages
/-
Conformance with the unit tests of the keyword tools: wip/keywordparser/tests/test_keyword_parser.py,
wip/loadenv/loadenv/unittests/test_unit_env_keyword_parser.py, wip/genconfig/tests/test_unit_config_keyword_parser.py and
wip/determinesystem/tests/test_determine_system.py: their .ini files, verbatim, and what they expect, evaluated on the
model. These are tests of the transcription, not proofs of properties.
-/
namespace CPE.Conformance.Keywords
open CPE.KW

/-- The configuration that the model reads in a text. -/
def read (text : Str) : Cfg := ((loadFiles (fun _ => .file text) (some [py!"test.ini"]) [['='], [':']]).2).getD emptyCfg

/-- wip/keywordparser/tests/test_supported_envs.ini -/
def kpEnvsText : Str :=
  py!"[machine-type-1]\n# This is a comment that takes up one or more\n# lines before you finally get to an\nintel-19.0.4-mpich-7.7.15-hsw-openmp: # Comment here\n    # Yet another comment\n    intel-hsw-openmp                  # Comment here\n    intel-hsw\n    default-env-hsw                   # It's the default\n    intel-openmp\n    intel\nintel-19.0.4-mpich-7.7.15-knl-openmp:\n    intel-knl-openmp\n    intel-knl\n    default-env-knl\n\n[machine-prefix-1]\ncuda-9.2-gnu-7.2.0-openmpi-2.1.2:\n    cuda-9\n    cuda\ncuda-10.1-gnu-7.2.0-openmpi-4.0.1:\n    cuda-10\ngnu-7.2.0-openmpi-2.1.2-openmp:\n    gnu-openmp\n    gnu\n    default-env\ngnu-7.2.0-openmpi-2.1.2-serial:\n    gnu-serial\n\n[machine-type-4]\narm-20.0-openmpi-4.0.2-openmp:\n    arm-20.0-openmp\n    arm-20.0\n    arm-20-openmp\n    arm-20\n    arm-openmp\n    arm\n    default-env\narm-20.0-openmpi-4.0.2-serial:\n    arm-20.0-serial\n    arm-20-serial\n    arm-serial\narm-20.1-openmpi-4.0.3-openmp:\n    arm-20.1-openmp\n    arm-20.1\narm-20.1-openmpi-4.0.3-serial:\n    arm-20.1-serial\n\n[test-system]\nenv-name-serial:\n    env-name\nenv-name-aliases-empty-string:\nenv-name-aliases-none\nanother-env:\n    with-an-alias\n"

/-- What it says: the sections and options that the standard `configparser` finds in it. -/
def kpEnvs : Cfg where
  sections := [
    (py!"machine-type-1", [(py!"intel-19.0.4-mpich-7.7.15-hsw-openmp", some py!"# Comment here\nintel-hsw-openmp                  # Comment here\nintel-hsw\ndefault-env-hsw                   # It's the default\nintel-openmp\nintel"),
      (py!"intel-19.0.4-mpich-7.7.15-knl-openmp", some py!"\nintel-knl-openmp\nintel-knl\ndefault-env-knl")]),
    (py!"machine-prefix-1", [(py!"cuda-9.2-gnu-7.2.0-openmpi-2.1.2", some py!"\ncuda-9\ncuda"),
      (py!"cuda-10.1-gnu-7.2.0-openmpi-4.0.1", some py!"\ncuda-10"),
      (py!"gnu-7.2.0-openmpi-2.1.2-openmp", some py!"\ngnu-openmp\ngnu\ndefault-env"),
      (py!"gnu-7.2.0-openmpi-2.1.2-serial", some py!"\ngnu-serial")]),
    (py!"machine-type-4", [(py!"arm-20.0-openmpi-4.0.2-openmp", some py!"\narm-20.0-openmp\narm-20.0\narm-20-openmp\narm-20\narm-openmp\narm\ndefault-env"),
      (py!"arm-20.0-openmpi-4.0.2-serial", some py!"\narm-20.0-serial\narm-20-serial\narm-serial"),
      (py!"arm-20.1-openmpi-4.0.3-openmp", some py!"\narm-20.1-openmp\narm-20.1"),
      (py!"arm-20.1-openmpi-4.0.3-serial", some py!"\narm-20.1-serial")]),
    (py!"test-system", [(py!"env-name-serial", some py!"\nenv-name"),
      (py!"env-name-aliases-empty-string", some py!""),
      (py!"env-name-aliases-none", none),
      (py!"another-env", some py!"\nwith-an-alias")])]
  commonName := py!"CONFIGPARSERENHANCED_COMMON"

/-- The reader of the model finds the same. -/
example : read kpEnvsText = kpEnvs := by decide +kernel

/-- `KeywordParser(file).get_values_for_section_key(s, k)` -/
def values (c : Cfg) (s k : Str) : Out (List Str) := (getValues (cls c) 60 s k (Obj.fresh (cls c) ())).1

/-- `KeywordParser(file).get_key_for_section_value(s, v)` -/
def keyFor (c : Cfg) (s v : Str) : Out Str := (getKey (cls c) 60 s v (Obj.fresh (cls c) ())).1

/-- `m in text` -/
def occurs (m text : Str) : Bool := SetEnv.isSubstr m text

/-- test_keyword_parser.py:13 test_config_ini_is_read_correctly -/
example : values kpEnvs py!"machine-type-1" py!"intel-19.0.4-mpich-7.7.15-hsw-openmp" =
    .ok [py!"intel-hsw-openmp", py!"intel-hsw", py!"default-env-hsw", py!"intel-openmp", py!"intel"] := by decide +kernel

/-- test_keyword_parser.py:45 test_values_do_not_contain_whitespace_or_delimiter -/
example : values (read py!"[machine-type-1]\nintel-18.0.5-mpich-7.7.15: # Comment here\n    intel 18              # Space in this value\n    intel_default\n    intel                 # Comment here too\n") py!"machine-type-1" py!"intel-18.0.5-mpich-7.7.15" =
    .exc .systemExit := by decide +kernel

/-- test_keyword_parser.py:45 test_values_do_not_contain_whitespace_or_delimiter -/
example : values (read py!"[machine-type-1]\nintel-18.0.5-mpich-7.7.15: # Comment here\n    intel 18              # Space in this value\n    intel                 # Comment here too\n") py!"machine-type-1" py!"intel-18.0.5-mpich-7.7.15" =
    .exc .systemExit := by decide +kernel

/-- test_keyword_parser.py:72 test_values_are_unique -/
example : values (read py!"[machine-type-1]\nintel-18.0.5-mpich-7.7.15: # Comment here\n    intel-18               # Space in this value\n    intel-default\n    intel-18               # Oops, a duplicate\n") py!"machine-type-1" py!"intel-18.0.5-mpich-7.7.15" =
    .exc .systemExit := by decide +kernel

/-- test_keyword_parser.py:97 test_values_do_not_match_any_keys -/
example : values (read py!"[machine-type-1]\nintel-18.0.5-mpich-7.7.15: # Comment here\n    intel-18               # Space in this value\n    intel-default\nintel-19.0.4-mpich-7.7.15-knl-openmp:\n    intel-18.0.5-mpich-7.7.15  # Matches a key! Bad!") py!"machine-type-1" py!"intel-19.0.4-mpich-7.7.15-knl-openmp" =
    .exc .systemExit := by decide +kernel

/-- test_keyword_parser.py:97 test_values_do_not_match_any_keys -/
example : values (read py!"[machine-type-1]\nintel-18.0.5-mpich-7.7.15: # Comment here\n    intel-18               # Space in this value\n    intel-default\nintel-19.0.4-mpich-7.7.15-knl-openmp:\n    intel-19.0.4-mpich-7.7.15-knl-openmp  # Matches a key! Bad!") py!"machine-type-1" py!"intel-19.0.4-mpich-7.7.15-knl-openmp" =
    .exc .systemExit := by decide +kernel

/-- test_keyword_parser.py:121 test_general_value_matches_correct_key -/
example : keyFor (read py!"[machine-type-1]\nintel-18.0.5-mpich-7.7.15: # Comment here\n    intel-18              # Comment here\n    intel                 # This is the general value\n    default-env           # It's the default\nintel-19.0.4-mpich-7.7.15:\n    intel-19") py!"machine-type-1" py!"intel" =
    .ok py!"intel-18.0.5-mpich-7.7.15" := by decide +kernel

/-- test_keyword_parser.py:121 test_general_value_matches_correct_key -/
example : keyFor (read py!"[machine-type-1]\nintel-19.0.4-mpich-7.7.15:\n    intel-19\nintel-18.0.5-mpich-7.7.15: # Comment here\n    intel-18              # Comment here\n    intel                 # This is the general value\n    default-env           # It's the default") py!"machine-type-1" py!"intel" =
    .ok py!"intel-18.0.5-mpich-7.7.15" := by decide +kernel

/-- test_keyword_parser.py:147 test_matched_value_not_in_config_section_raises -/
example : keyFor kpEnvs py!"machine-type-1" py!"bad_value" =
    .exc .systemExit := by decide +kernel

/-- test_keyword_parser.py:158 test_get_msg_for_list_works_correctly -/
example : occurs py!"|   ERROR:  Message here.\n|     - item1\n|     - item2\n|     - item3\n|\n|   Extra message here."
    (msgForList py!"Message here." [py!"item1", py!"item2", py!"item3"] py!"ERROR" py!"\nExtra message here.") =
    true := by decide +kernel

/-- test_keyword_parser.py:179 test_get_formatted_msg_trims_trailing_whitespace -/
example : occurs py!"|   ERROR:  Message here.\n|   Extra" (formattedMsg py!"Message here." py!"ERROR" py!"Extra   ") =
    true := by decide +kernel

/-- test_keyword_parser.py:179 test_get_formatted_msg_trims_trailing_whitespace -/
example : occurs py!"Extra   " (formattedMsg py!"Message here." py!"ERROR" py!"Extra   ") =
    false := by decide +kernel

/-- wip/determinesystem/tests/test_supported_systems.ini -/
def systemsText : Str :=
  py!"[machine-type-1]\nmachine-prefix-1.*  # Comments here\n\n[machine-type-2]\n# Comment at beginning of line\nmachine-prefix-2.*\n\n[machine-type-3]\nmachine-prefix-3.*\n\n[rhel7]\nmachine-prefix-4.*\nmachine-prefix-5.*\n\n[machine-type-4]\nmachine-prefix-6.*\n"

/-- What it says: the sections and options that the standard `configparser` finds in it. -/
def systems : Cfg where
  sections := [
    (py!"machine-type-1", [(py!"machine-prefix-1.*  # Comments here", none)]),
    (py!"machine-type-2", [(py!"machine-prefix-2.*", none)]),
    (py!"machine-type-3", [(py!"machine-prefix-3.*", none)]),
    (py!"rhel7", [(py!"machine-prefix-4.*", none),
      (py!"machine-prefix-5.*", none)]),
    (py!"machine-type-4", [(py!"machine-prefix-6.*", none)])]
  commonName := py!"CONFIGPARSERENHANCED_COMMON"

/-- The reader of the model finds the same. -/
example : read systemsText = systems := by decide +kernel

/-- A host. The patterns of the tests are not simple: they end in `.*`, for which the text before it is searched. -/
def host (name : Str) : Host where
  hostname := name
  rx p t := .ok (if (py!"*.").isPrefixOf p.reverse then searchAnywhere (p.reverse.drop 2).reverse t else false)
  lower s := s.map Char.toLower
  upper s := s.map Char.toUpper

/-- `DetermineSystem(build, file, force_build_name=force).system_name` -/
def system (name build : Str) (force : Bool) : Out (Option Str) :=
  (DS.systemName (cls systems) 60 (host name) (DS.new (cls systems) build force)).1

/-- test_determine_system.py:20 test_supported_sys_names_property_returns_correctly -/
example : sysNames (cls systems) =
    [py!"machine-type-1", py!"machine-type-2", py!"machine-type-3", py!"rhel7", py!"machine-type-4"] := by decide +kernel

/-- test_determine_system.py:39 test_system_name_determination_correct_for_hostname -/
example : system py!"machine-prefix-1" py!"build_name" false =
    .ok (some py!"machine-type-1") := by decide +kernel

/-- test_determine_system.py:39 test_system_name_determination_correct_for_hostname -/
example : system py!"machine-prefix-2" py!"build_name" false =
    .ok (some py!"machine-type-2") := by decide +kernel

/-- test_determine_system.py:39 test_system_name_determination_correct_for_hostname -/
example : system py!"machine-prefix-3" py!"build_name" false =
    .ok (some py!"machine-type-3") := by decide +kernel

/-- test_determine_system.py:39 test_system_name_determination_correct_for_hostname -/
example : system py!"machine-prefix-4007" py!"build_name" false =
    .ok (some py!"rhel7") := by decide +kernel

/-- test_determine_system.py:39 test_system_name_determination_correct_for_hostname -/
example : system py!"machine-prefix-5004" py!"build_name" false =
    .ok (some py!"rhel7") := by decide +kernel

/-- test_determine_system.py:39 test_system_name_determination_correct_for_hostname -/
example : system py!"machine-prefix-5005" py!"build_name" false =
    .ok (some py!"rhel7") := by decide +kernel

/-- test_determine_system.py:48 test_sys_name_in_build_name_not_matching_hostname_raises -/
example : system py!"machine-prefix-6" py!"machine-type-1_build-name" false =
    .exc .systemExit := by decide +kernel

/-- test_determine_system.py:64 test_sys_name_in_build_name_overrides_hostname_match_when_forced -/
example : system py!"machine-prefix-6" py!"machine-type-1_build-name" true =
    .ok (some py!"machine-type-1") := by decide +kernel

/-- test_determine_system.py:74 test_sys_name_in_build_name_not_bordered_by_underscores_not_recognized -/
example : system py!"unsupported_hostname" py!"some-prefix-machine-type-1_build-name" false =
    .exc .systemExit := by decide +kernel

/-- test_determine_system.py:89 test_multiple_sys_names_in_build_name_raises_regardless_of_hostname_match -/
example : system py!"machine-prefix-6" py!"machine-type-1_rhel7_build-name" false =
    .exc .systemExit := by decide +kernel

/-- test_determine_system.py:89 test_multiple_sys_names_in_build_name_raises_regardless_of_hostname_match -/
example : system py!"unsupported_hostname" py!"machine-type-1_rhel7_build-name" false =
    .exc .systemExit := by decide +kernel

/-- test_determine_system.py:108 test_unsupported_hostname_handled_correctly -/
example : system py!"unsupported_hostname" py!"no-system-here" false =
    .exc .systemExit := by decide +kernel

/-- test_determine_system.py:108 test_unsupported_hostname_handled_correctly -/
example : system py!"machine-prefix-1" py!"machine-type-1_build-name" false =
    .ok (some py!"machine-type-1") := by decide +kernel

/-- wip/loadenv/loadenv/unittests/supporting_files/test_supported_envs.ini -/
def envsText : Str :=
  py!"[rhel7]\ncee-cuda-10.1.243-gnu-7.2.0-openmpi-4.0.3:\n    cuda\n\n[machine-type-1]\n# This is a comment that takes up one or more\n# lines before you finally get to an\nintel-19.0.4-mpich-7.7.15-hsw-openmp: # Comment here\n    # Yet another comment\n    intel-hsw-openmp                  # Comment here\n    intel-hsw\n    default-env-hsw                   # It's the default\n    intel-openmp\n    intel\nintel-19.0.4-mpich-7.7.15-knl-openmp:\n    intel-knl-openmp\n    intel-knl\n    default-env-knl\n\n[test-sys-1]\ncuda-9.2-gnu-7.2.0-openmpi-2.1.2:\n    cuda-9\n    cuda\ncuda-10.1-gnu-7.2.0-openmpi-4.0.1:\n    cuda-10\ngnu-7.2.0-openmpi-2.1.2-openmp:\n    gnu-openmp\n    gnu\n    default-env\ngnu-7.2.0-openmpi-2.1.2-serial:\n    gnu-serial\n\n[machine-type-4]\narm-20.0-openmpi-4.0.2-openmp:\n    arm-20.0-openmp\n    arm-20.0\n    arm-20-openmp\n    arm-20\n    arm-openmp\n    arm\n    default-env\narm-20.0-openmpi-4.0.2-serial:\n    arm-20.0-serial\n    arm-20-serial\n    arm-serial\narm-20.1-openmpi-4.0.3-openmp:\n    arm-20.1-openmp\n    arm-20.1\narm-20.1-openmpi-4.0.3-serial:\n    arm-20.1-serial\n\n[test-system]\nenv-name-serial:\n    env-name\nenv-name-aliases-empty-string:\nenv-name-aliases-none\nanother-env:\n    with-an-alias\n"

/-- What it says: the sections and options that the standard `configparser` finds in it. -/
def envs : Cfg where
  sections := [
    (py!"rhel7", [(py!"cee-cuda-10.1.243-gnu-7.2.0-openmpi-4.0.3", some py!"\ncuda")]),
    (py!"machine-type-1", [(py!"intel-19.0.4-mpich-7.7.15-hsw-openmp", some py!"# Comment here\nintel-hsw-openmp                  # Comment here\nintel-hsw\ndefault-env-hsw                   # It's the default\nintel-openmp\nintel"),
      (py!"intel-19.0.4-mpich-7.7.15-knl-openmp", some py!"\nintel-knl-openmp\nintel-knl\ndefault-env-knl")]),
    (py!"test-sys-1", [(py!"cuda-9.2-gnu-7.2.0-openmpi-2.1.2", some py!"\ncuda-9\ncuda"),
      (py!"cuda-10.1-gnu-7.2.0-openmpi-4.0.1", some py!"\ncuda-10"),
      (py!"gnu-7.2.0-openmpi-2.1.2-openmp", some py!"\ngnu-openmp\ngnu\ndefault-env"),
      (py!"gnu-7.2.0-openmpi-2.1.2-serial", some py!"\ngnu-serial")]),
    (py!"machine-type-4", [(py!"arm-20.0-openmpi-4.0.2-openmp", some py!"\narm-20.0-openmp\narm-20.0\narm-20-openmp\narm-20\narm-openmp\narm\ndefault-env"),
      (py!"arm-20.0-openmpi-4.0.2-serial", some py!"\narm-20.0-serial\narm-20-serial\narm-serial"),
      (py!"arm-20.1-openmpi-4.0.3-openmp", some py!"\narm-20.1-openmp\narm-20.1"),
      (py!"arm-20.1-openmpi-4.0.3-serial", some py!"\narm-20.1-serial")]),
    (py!"test-system", [(py!"env-name-serial", some py!"\nenv-name"),
      (py!"env-name-aliases-empty-string", some py!""),
      (py!"env-name-aliases-none", none),
      (py!"another-env", some py!"\nwith-an-alias")])]
  commonName := py!"CONFIGPARSERENHANCED_COMMON"

/-- The reader of the model finds the same. -/
example : read envsText = envs := by decide +kernel

/-- `EnvKeywordParser(build, sys, file).qualified_env_name` -/
def envName (c : Cfg) (build sys : Str) : Out Str :=
  match EKP.new (cls c) 60 build sys with
  | .ok k => (EKP.qualifiedEnvName (cls c) 60 (host py!"h") k).1
  | .exc e => .exc e
  | .diverge => .diverge

/-- The message of `get_msg_showing_supported_environments`. -/
def envsMsg (c : Cfg) (build sys path msg kind : Str) : Out Str :=
  match EKP.new (cls c) 60 build sys with
  | .ok k => (EKP.envsMsg (cls c) 60 path msg kind k).1
  | .exc e => .exc e
  | .diverge => .diverge

/-- test_unit_env_keyword_parser.py:53 test_env_keyword_parser_matches_correctly -/
example : envName envs py!"machine-type-1_intel-19.0.4-mpich-7.7.15-hsw-openmp_static_dbg" py!"machine-type-1" =
    .ok py!"machine-type-1_intel-19.0.4-mpich-7.7.15-hsw-openmp" := by decide +kernel

/-- test_unit_env_keyword_parser.py:53 test_env_keyword_parser_matches_correctly -/
example : envName envs py!"default-env-knl" py!"machine-type-1" =
    .ok py!"machine-type-1_intel-19.0.4-mpich-7.7.15-knl-openmp" := by decide +kernel

/-- test_unit_env_keyword_parser.py:53 test_env_keyword_parser_matches_correctly -/
example : envName envs py!"intel_hsw" py!"machine-type-1" =
    .ok py!"machine-type-1_intel-19.0.4-mpich-7.7.15-hsw-openmp" := by decide +kernel

/-- test_unit_env_keyword_parser.py:53 test_env_keyword_parser_matches_correctly -/
example : envName envs py!"machine-type-4_arm-20.1" py!"machine-type-4" =
    .ok py!"machine-type-4_arm-20.1-openmpi-4.0.3-openmp" := by decide +kernel

/-- test_unit_env_keyword_parser.py:53 test_env_keyword_parser_matches_correctly -/
example : envName envs py!"arm-serial" py!"machine-type-4" =
    .ok py!"machine-type-4_arm-20.0-openmpi-4.0.2-serial" := by decide +kernel

/-- test_unit_env_keyword_parser.py:60 test_nonexistent_env_name_or_alias_raises -/
example : envName envs py!"bad-kw-str" py!"machine-type-1" =
    .exc .systemExit := by decide +kernel

/-- test_unit_env_keyword_parser.py:111 test_unsupported_versions_are_rejected -/
example : envName envs py!"intel-20" py!"machine-type-1" =
    .exc .systemExit := by decide +kernel

/-- test_unit_env_keyword_parser.py:111 test_unsupported_versions_are_rejected -/
example : envName envs py!"intel-19-mpich-7.2" py!"machine-type-1" =
    .exc .systemExit := by decide +kernel

/-- test_unit_env_keyword_parser.py:111 test_unsupported_versions_are_rejected -/
example : envName envs py!"arm-20.2" py!"machine-type-4" =
    .exc .systemExit := by decide +kernel

/-- test_unit_env_keyword_parser.py:111 test_unsupported_versions_are_rejected -/
example : envName envs py!"arm-20.1-openmpi-4.0.2" py!"machine-type-4" =
    .exc .systemExit := by decide +kernel

/-- test_unit_env_keyword_parser.py:111 test_unsupported_versions_are_rejected -/
example : envName envs py!"intel-20.0.4-mpich-8.7.15-hsw-1.2.3-openmp-4.5.6" py!"machine-type-1" =
    .exc .systemExit := by decide +kernel

/-- test_unit_env_keyword_parser.py:168 test_unsupported_node_types_are_rejected -/
example : envName envs py!"intel-hsw-serial" py!"machine-type-1" =
    .exc .systemExit := by decide +kernel

/-- test_unit_env_keyword_parser.py:168 test_unsupported_node_types_are_rejected -/
example : envName envs py!"intel-serial" py!"machine-type-1" =
    .exc .systemExit := by decide +kernel

/-- test_unit_env_keyword_parser.py:168 test_unsupported_node_types_are_rejected -/
example : envName envs py!"env-name-openmp" py!"test-system" =
    .exc .systemExit := by decide +kernel

/-- test_unit_env_keyword_parser.py:168 test_unsupported_node_types_are_rejected -/
example : envName envs py!"cuda-serial" py!"test-sys-1" =
    .exc .systemExit := by decide +kernel

/-- test_unit_env_keyword_parser.py:168 test_unsupported_node_types_are_rejected -/
example : envName envs py!"cuda-10-openmp" py!"test-sys-1" =
    .exc .systemExit := by decide +kernel

/-- test_unit_env_keyword_parser.py:204 test_alias_values_are_unique -/
example : envName (read py!"[machine-type-1]\nintel-18.0.5-mpich-7.7.15: # Comment here\n    intel-18              # Comment here\n    intel                 # Comment here too\n    default-env           # It's the default\nintel-19.0.4-mpich-7.7.15:\n    intel-19\n    intel\n") py!"default-env" py!"machine-type-1" =
    .exc .systemExit := by decide +kernel

/-- test_unit_env_keyword_parser.py:204 test_alias_values_are_unique -/
example : envName (read py!"[machine-type-1]\nintel-18.0.5-mpich-7.7.15: # Comment here\n    intel-18              # Comment here\n    intel                 # Comment here too\n    default-env           # It's the default\nintel-19.0.4-mpich-7.7.15:\n    intel-19\n    intel-18\n") py!"default-env" py!"machine-type-1" =
    .exc .systemExit := by decide +kernel

/-- test_unit_env_keyword_parser.py:229 test_env_name_without_alias_okay -/
example : (match envsMsg envs py!"build-name" py!"test-system" py!"test_supported_envs.ini"
      py!"Ensuring environment names without aliases don't cause problems." py!"TEST" with
    | .ok t => occurs py!"|   - Supported Environments for 'test-system':\n|     - another-env\n|       * Aliases:\n|         - with-an-alias\n|     - env-name-aliases-empty-string\n|     - env-name-aliases-none\n|     - env-name-serial\n|       * Aliases:\n|         - env-name" t
    | _ => false) =
    true := by decide +kernel

/-- test_unit_env_keyword_parser.py:229 test_env_name_without_alias_okay -/
example : (match envsMsg envs py!"build-name" py!"test-system" py!"test_supported_envs.ini"
      py!"Ensuring environment names without aliases don't cause problems." py!"TEST" with
    | .ok t => occurs py!"|   See `test_supported_envs.ini` for details" t
    | _ => false) =
    true := by decide +kernel

/-- wip/genconfig/tests/supporting_files/test-supported-config-flags.ini -/
def flagsText : Str :=
  py!"# Syntax:\n# [configure-flags]\n# flag1:  SELECT_ONE   # SELECT_ONE or SELECT_MANY indicates whether multiple\n#     option1          # options can be selected for that flag or not.\n#     option2\n# flag2:  SELECT_MANY  # flag names must be unique\n#     option3          # option names must also all be unique\n#     option4\n\n[configure-flags]\nuse-mpi:  SELECT_ONE\n    mpi # the first option is the default if neither is specified in the build name\n    no-mpi\nnode-type:  SELECT_ONE\n    serial\n    openmp\npackage-enables:  SELECT_MANY\n    none   # by default, don't turn anything on\n    empire\n    sparc  # flags can support more than just two options\n    muelu  # e.g., a common configuration used by the MueLu team\n    jmgate # e.g., just my personal configuration, not intended to be used by others\n# etc.\n"

/-- What it says: the sections and options that the standard `configparser` finds in it. -/
def flags : Cfg where
  sections := [
    (py!"configure-flags", [(py!"use-mpi", some py!"SELECT_ONE\nmpi # the first option is the default if neither is specified in the build name\nno-mpi"),
      (py!"node-type", some py!"SELECT_ONE\nserial\nopenmp"),
      (py!"package-enables", some py!"SELECT_MANY\nnone   # by default, don't turn anything on\nempire\nsparc  # flags can support more than just two options\nmuelu  # e.g., a common configuration used by the MueLu team\njmgate # e.g., just my personal configuration, not intended to be used by others")])]
  commonName := py!"CONFIGPARSERENHANCED_COMMON"

/-- The reader of the model finds the same. -/
example : read flagsText = flags := by decide +kernel

/-- Run code on `ConfigKeywordParser(build, file)`. -/
def ckp {α : Type} (c : Cfg) (build : Str) (m : M CKP α) : Out α :=
  match CKP.new (cls c) 60 build with
  | .ok k => (m k).1
  | .exc e => .exc e
  | .diverge => .diverge

/-- `selected_options` -/
def selected (c : Cfg) (build : Str) : Out (List (Str × Sel)) := ckp c build (CKP.selectedOptions (cls c) 60)

/-- `selected_options_str` -/
def selectedStr (c : Cfg) (build : Str) : Out Str := ckp c build (CKP.selectedOptionsStr (cls c) 60)

/-- test_unit_config_keyword_parser.py:42 test_keyword_parser_matches_correctly -/
example : selected flags py!"machine-type-5_mpi_serial_empire" =
    .ok [(py!"use-mpi", .one py!"mpi"), (py!"node-type", .one py!"serial"), (py!"package-enables", .one py!"empire")] := by decide +kernel

/-- test_unit_config_keyword_parser.py:42 test_keyword_parser_matches_correctly -/
example : selected flags py!"machine-type-3_no-mpi_openmp_sparc_empire" =
    .ok [(py!"use-mpi", .one py!"no-mpi"), (py!"node-type", .one py!"openmp"), (py!"package-enables", .many [py!"empire", py!"sparc"])] := by decide +kernel

/-- test_unit_config_keyword_parser.py:42 test_keyword_parser_matches_correctly -/
example : selected flags py!"machine-type-3_openmp" =
    .ok [(py!"use-mpi", .one py!"mpi"), (py!"node-type", .one py!"openmp"), (py!"package-enables", .one py!"none")] := by decide +kernel

/-- test_unit_config_keyword_parser.py:63 test_parser_uses_correct_defaults -/
example : selected flags py!"machine-type-3" =
    .ok [(py!"use-mpi", .one py!"mpi"), (py!"node-type", .one py!"serial"), (py!"package-enables", .one py!"none")] := by decide +kernel

/-- test_unit_config_keyword_parser.py:91 test_selected_options_str_generated_consistently -/
example : selectedStr flags py!"machine-type-5" =
    .ok py!"_mpi_serial_none" := by decide +kernel

/-- test_unit_config_keyword_parser.py:91 test_selected_options_str_generated_consistently -/
example : selectedStr flags py!"machine-type-5_openmp_muelu_sparc_no-mpi" =
    .ok py!"_no-mpi_openmp_muelu_sparc" := by decide +kernel

/-- test_unit_config_keyword_parser.py:104 test_multiple_options_for_select_one_flag_in_build_name_raises -/
example : selected flags py!"machine-type-5_mpi_no-mpi_serial_empire" =
    .exc .valueError := by decide +kernel

/-- test_unit_config_keyword_parser.py:104 test_multiple_options_for_select_one_flag_in_build_name_raises -/
example : selected flags py!"machine-type-5_mpi_serial_openmp_empire" =
    .exc .valueError := by decide +kernel

/-- test_unit_config_keyword_parser.py:114 test_flag_without_type_in_config_ini_raises -/
example : ckp (read py!"[configure-flags]\nuse-mpi:  # No type specified here\n    mpi\n    no-mpi\nnode-type:  SELECT_ONE\n    serial\n    openmp\n") py!"machine-type-5"
      (CKP.flagsMsg (cls (read py!"[configure-flags]\nuse-mpi:  # No type specified here\n    mpi\n    no-mpi\nnode-type:  SELECT_ONE\n    serial\n    openmp\n")) 60 py!"f.ini" py!"Message here." py!"ERROR") =
    .exc .valueError := by decide +kernel

/-- test_unit_config_keyword_parser.py:148 test_options_are_unique_for_all_flags -/
example : selectedStr (read py!"[configure-flags]\nkokkos-arch:  SELECT_MANY\n    none\n    KNC\n    KNL\npackage-enables:  SELECT_MANY\n    none\n    empire\n    sparc\n") py!"machine-type-5" =
    .exc .systemExit := by decide +kernel

/-- test_unit_config_keyword_parser.py:148 test_options_are_unique_for_all_flags -/
example : selectedStr (read py!"[configure-flags]\nkokkos-arch:  SELECT_MANY\n    none\n    KNC\n    KNL\npackage-enables:  SELECT_MANY\n    none\n    empire\n    sparc\n    KNC") py!"machine-type-5" =
    .exc .systemExit := by decide +kernel

/-- test_unit_config_keyword_parser.py:197 test_supported_flags_shown_correctly -/
example : (match ckp (read py!"[configure-flags]\nuse-mpi:  SELECT_ONE\n    mpi\n    no-mpi\nnode-type:  SELECT_ONE\n    serial\n    openmp\n") py!"machine-type-5"
        (CKP.flagsMsg (cls (read py!"[configure-flags]\nuse-mpi:  SELECT_ONE\n    mpi\n    no-mpi\nnode-type:  SELECT_ONE\n    serial\n    openmp\n")) 60 py!"test_supported_flags_shown_correctly.ini" py!"Message here." py!"ERROR") with
    | .ok t => occurs py!"|   ERROR:  Message here.\n|\n|   - Supported Flags Are:\n|     - use-mpi\n|       * Options (SELECT_ONE):\n|         - mpi (default)\n|         - no-mpi\n|     - node-type\n|       * Options (SELECT_ONE):\n|         - serial (default)\n|         - openmp" t
    | _ => false) =
    true := by decide +kernel

/-- test_unit_config_keyword_parser.py:197 test_supported_flags_shown_correctly -/
example : (match ckp (read py!"[configure-flags]\nuse-mpi:  SELECT_ONE\n    mpi\n    no-mpi\nnode-type:  SELECT_ONE\n    serial\n    openmp\n") py!"machine-type-5"
        (CKP.flagsMsg (cls (read py!"[configure-flags]\nuse-mpi:  SELECT_ONE\n    mpi\n    no-mpi\nnode-type:  SELECT_ONE\n    serial\n    openmp\n")) 60 py!"test_supported_flags_shown_correctly.ini" py!"Message here." py!"ERROR") with
    | .ok t => occurs py!"|   See test_supported_flags_shown_correctly.ini for details." t
    | _ => false) =
    true := by decide +kernel

/-- test_unit_config_keyword_parser.py:235 test_config_keyword_parser_can_be_reused_for_multiple_build_names -/
example : ckp flags py!"machine-type-5" (do
      let _ ← CKP.selectedOptions (cls flags) 60
      let _ ← CKP.selectedOptionsStr (cls flags) 60
      CKP.setBuildName py!"machine-type-5_openmp_muelu_empire_sparc"
      CKP.selectedOptions (cls flags) 60) =
    .ok [(py!"use-mpi", .one py!"mpi"), (py!"node-type", .one py!"openmp"), (py!"package-enables", .many [py!"empire", py!"muelu", py!"sparc"])] := by decide +kernel

/-- test_unit_config_keyword_parser.py:235 test_config_keyword_parser_can_be_reused_for_multiple_build_names -/
example : ckp flags py!"machine-type-5" (do
      let _ ← CKP.selectedOptions (cls flags) 60
      let _ ← CKP.selectedOptionsStr (cls flags) 60
      CKP.setBuildName py!"machine-type-5_openmp_muelu_empire_sparc"
      CKP.selectedOptionsStr (cls flags) 60) =
    .ok py!"_mpi_openmp_empire_muelu_sparc" := by decide +kernel

/-- test_unit_config_keyword_parser.py:274 test_config_keyword_parser_accurately_checks_if_option_is_a_default -/
example : ckp flags py!"machine-type-5" (CKP.isDefaultOption (cls flags) 60 py!"no-mpi") =
    .ok false := by decide +kernel

/-- test_unit_config_keyword_parser.py:274 test_config_keyword_parser_accurately_checks_if_option_is_a_default -/
example : ckp flags py!"machine-type-5" (CKP.isDefaultOption (cls flags) 60 py!"mpi") =
    .ok true := by decide +kernel

/-- test_unit_config_keyword_parser.py:274 test_config_keyword_parser_accurately_checks_if_option_is_a_default -/
example : ckp flags py!"machine-type-5" (CKP.isDefaultOption (cls flags) 60 py!"muelu") =
    .ok false := by decide +kernel

/-- test_unit_config_keyword_parser.py:274 test_config_keyword_parser_accurately_checks_if_option_is_a_default -/
example : ckp flags py!"machine-type-5" (CKP.isDefaultOption (cls flags) 60 py!"none") =
    .ok true := by decide +kernel

/-- test_unit_config_keyword_parser.py:274 test_config_keyword_parser_accurately_checks_if_option_is_a_default -/
example : ckp flags py!"machine-type-5" (CKP.isDefaultOption (cls flags) 60 py!"openmp") =
    .ok false := by decide +kernel

/-- test_unit_config_keyword_parser.py:274 test_config_keyword_parser_accurately_checks_if_option_is_a_default -/
example : ckp flags py!"machine-type-5" (CKP.isDefaultOption (cls flags) 60 py!"serial") =
    .ok true := by decide +kernel

end CPE.Conformance.Keywords

