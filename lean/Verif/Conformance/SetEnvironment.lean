import Verif.Model.Object
import Verif.Model.SetEnvironment
/-
Conformance with the unit tests of SetEnvironment (wip/setenvironment/src/setenvironment/unittests/test_SetEnvironment.py):
the .ini file of the tests and the generated scripts they compare with, verbatim (but for their headers), evaluated on the model. These are
tests of the transcription, not proofs of properties.
-/
namespace CPE.Conformance.SetEnvironment
open CPE.SetEnv

/-- wip/setenvironment/src/setenvironment/unittests/config_test_setenvironment.ini -/
def ini : Str :=
  py!"[CONFIG_A]\nenvvar-set     FOO : bar\nenvvar-append  FOO : baz\nenvvar-prepend FOO : foo\nenvvar-set     BAR : foo\nenvvar-set     BAZ : bar\nenvvar-remove-substr FOO : bar\nenvvar-unset   FOO\nenvvar-remove  BAZ\n\n[CONFIG_A+]\nuse CONFIG_A\nuse CONFIG_B+\n\n\n[CONFIG_B]\nmodule-purge\nmodule-use             : src/setenvironment/unittests/modulefiles\nmodule-load   gcc A    : 4.8.4\nmodule-load   boost    : 1.10.1\nmodule-load   python A : 3.5.3\nmodule-load   gcc B    : 4.8.4\nmodule-unload boost    :\nmodule-unload python   :\nmodule-load   python B : 3.9.0\nmodule-swap   gcc      : gcc/7.3.0\nmodule-remove python   :\n\n\n[CONFIG_B+]\nuse CONFIG_B\nuse CONFIG_A+\n\n\n\n[CONFIG_TEST_ENVVAR_REMOVE]\nmodule-use         : /foo/bar/baz\nenvvar-set     FOO : bar\nenvvar-append  FOO : baz\nenvvar-prepend FOO : foo\nenvvar-set     BAR : foo\nenvvar-remove  FOO\nenvvar-remove  UNKNOWN\n\n\n[ENVVAR_SET_FOO]\nenvvar-set FOO : BAR\n\n\n[MODULE_USE_BADPATH]\nmodule-use : this/is/a/bad/path\n\n\n\n[MODULE_LOAD_NOEXIST]\nmodule-load gcc : 1.2.3\n\n\n\n[MODULE_LOAD_OK]\nmodule-use      : src/setenvironment/unittests/modulefiles\nmodule-load gcc : 7.3.0\n\n\n\n[ENVVAR_VAR_EXPANSION]\nenvvar-set ENVVAR_PARAM_01 : \"AAA\"\nenvvar-set ENVVAR_PARAM_02 : \"B${ENVVAR_PARAM_01}B\"\nenvvar-set ENVVAR_PARAM_03 : ${ENVVAR_PARAM_01} -- ${ENVVAR_PARAM_02} -- ${ADFASF}\n\n\n\n[ENVVAR_VAR_EXPANSION_BAD]\nenvvar-set ENVVAR_PARAM_01 : \"B${ENVVAR_PARAM_MISSING}B\"\n\n\n\n[CONFIG_ENVVAR_WITH_GENERIC_OPTION]\nenvvar-set     FOO : bar\nenvvar-append  FOO : baz\nenvvar-prepend FOO : foo\nkey1: value1\n\n\n[ENVVAR_UNSET_TEST]\nenvvar-set     FOO : bar\nenvvar-unset   FOO\n# FOO should be UNSET so unsetting again\n# should exercise the condition if we try\n# to unset a nonexistent envvar.\nenvvar-unset   FOO B\n\n\n[ENVVAR_REMOVE_SUBSTR_TEST]\n# Create an environment var FOO=\"BAAAB\"\nenvvar-set FOO           : BAAAB\n# Removes all \"A\" substrings from FOO\nenvvar-remove-substr FOO : A\n# Result should be: FOO=\"BB\"\n\n\n[ENVVAR_REMOVE_SUBSTR_TEST_PATHS]\n# USECASE 1:\n" ++
  py!"envvar-set TEST_SETENVIRONMENT_PATH1 : /foo:/bar/baz:/bif\nenvvar-remove-substr TEST_SETENVIRONMENT_PATH1: /bar/baz\n# Result of `/foo::/bif` is ok, but we should properly handle the `/` in the\n# generated bash script when writing output to a file (will sed not work?)\n\n# USECASE 2:\nenvvar-set TEST_SETENVIRONMENT_PATH2 : /foo:/bar:/bar/baz:/bif\nenvvar-remove-substr TEST_SETENVIRONMENT_PATH2: /bar\n# Desired result is `/foo:/bar/baz:/bif`\n# Result will probably be `/foo::/baz:/bif` which is wrong.\n\n\n[ENVVAR_REMOVE_SUBSTR_TEST_NO_ENVVAR]\n# Test removing from an envvar that doesn't exist.\nenvvar-unset FOO\nenvvar-remove-substr FOO: MEH!\n# This should do nothing...\n\n\n[ENVVAR_REMOVE_PATH_ENTRY_TEST]\n# Test 1:\n# Create an TEST_PATH1 = \"/foo:/bar:/bar/baz:/bar:/bif\"\nenvvar_set TEST_PATH1 : /foo:/bar:/bar/baz:/bar:/bif\n# Removes \"/bar\" from the path\nenvvar-remove-path-entry TEST_PATH1 : /bar\n# Result should be: TEST_PATH1 = \"/foo:/bar/baz:/bif\"\n\n# Test 2:\n# Try removing a nonexistent path substr\nenvvar-set TEST_PATH2 : /foo:/bar:/bar/baz:/bar:/bif\nenvvar-remove-path-entry TEST_PATH2 : /this/path/does/not/exist\n# Result should be: /foo:/bar:/bar/baz:/bar:/bif\n\n# Test 3:\n# Remove a path that is longer than 1 dir\nenvvar-set TEST_PATH3 : /foo:/bar:/bar/baz:/bar:/bif\nenvvar-remove-path-entry TEST_PATH3 : /bar/baz\n# Result should be: /foo:/bar:/bar:/bif\n\n# Test 4:\n# Try removing an entry from a non-existent path:\nenvvar-remove-path-entry TEST_PATH_NO_EXIST: /biz\n# This shouldn't do anything...\n\n\n[ENVVAR_FIND_IN_PATH_TEST]\nenvvar-set          TEST_ENVVAR_EXE  : ls\nenvvar-find-in-path TEST_ENVVAR_PATH : ${TEST_ENVVAR_EXE}\n\nenvvar-find-in-path TEST_ENVVAR_NOTFOUND : nonexistent-app\n\n\n# Issue #12 : `envvar-assert-not-empty` testing\n[ENVVAR_ASSERT_NOT_EMPTY]\nenvvar-set TEST_ENVVAR_VALUE_01: FOO\nenvvar-assert-not-empty TEST_ENVVAR_VALUE_01\n# TEST_ENVVAR_VALUE_01 should be set and would pass the check\n\nenvvar-set TEST_ENVVAR_VALUE_02:\nenvvar-assert-not-empty TEST_ENVVAR_VALUE_02\n" ++
  py!"# TEST_ENVVAR_VALUE_02 would be empty and thus would fail the check\n\nenvvar-set TEST_ENVVAR_VALUE_03:\nenvvar-assert-not-empty TEST_ENVVAR_VALUE_03: ERROR - TEST_ENVVAR_VALUE_03 is missing or empty.\n# TEST_ENVVAR_VALUE_03 would be empty and thus would fail the check\n\nenvvar-unset TEST_ENVVAR_VALUE_04\nenvvar-assert-not-empty TEST_ENVVAR_VALUE_04\n# TEST_ENVVAR_VALUE_02 would be unset and would fail the check\n\nenvvar-unset TEST_ENVVAR_VALUE_05\nenvvar-assert-not-empty TEST_ENVVAR_VALUE_05: ERROR - TEST_ENVVAR_VALUE_05 is missing or empty.\n# TEST_ENVVAR_VALUE_02 would be unset and would fail the check\n\n[ENVVAR_ASSERT_NOT_EMPTY_02]\nenvvar-unset TEST_ENVVAR\nenvvar-assert-not-empty TEST_ENVVAR : \"MY CUSTOM ERROR MESSAGE\"\n\n\n[ENVVAR_SET_IF_EMPTY_01]\n# Cleanup\nenvvar-unset FOO_VAR\nenvvar-unset BAR_VAR\nenvvar-unset BAZ_VAR\nenvvar-unset BIF_VAR\n\n# Set initial envvars\nenvvar-set FOO_VAR: FOO_VAL\nenvvar-set BAR_VAR:\n\n# Test envvar-set-if-empty\nenvvar-set-if-empty FOO_VAR: BAR_VAL\nenvvar-set-if-empty BAR_VAR: BAR_VAL\nenvvar-set-if-empty BAZ_VAR: BAZ_VAL\nenvvar-set-if-empty BIF_VAR:\n\n# Results should be:\n# FOO_VAR == FOO_VAL\n# BAR_VAR == BAR_VAL\n# BAZ_VAR == BAZ_VAL\n# BIF_VAR == \"\"\n\n# Test module-load without version\n[MODULE_LOAD_NO_VERSION]\nmodule-unload gcc\nmodule-unload boost\nmodule-load gcc\nmodule-load boost:\nenvvar-assert-not-empty TEST_SETENVIRONMENT_GCC_VER\n\n[BASH_ENV_VAL_WITH_SPECIAL_CHARS_NOT_INTERPRETED]\nenvvar-set          SEMICOLON_SET:          value_with;semicolon\nenvvar-set          ASTERISK_SET:           value_with*asterisk\nenvvar-set-if-empty SEMICOLON_SET_IF_EMPTY: value_with;semicolon\nenvvar-set-if-empty ASTERISK_SET_IF_EMPTY:  value_with*asterisk\n"

/-- What the .ini file says (the sections and options that the standard `configparser` finds in it). -/
def cfg : Cfg where
  sections := [
    (py!"CONFIG_A", [(py!"envvar-set     FOO", some py!"bar"),
      (py!"envvar-append  FOO", some py!"baz"),
      (py!"envvar-prepend FOO", some py!"foo"),
      (py!"envvar-set     BAR", some py!"foo"),
      (py!"envvar-set     BAZ", some py!"bar"),
      (py!"envvar-remove-substr FOO", some py!"bar"),
      (py!"envvar-unset   FOO", none),
      (py!"envvar-remove  BAZ", none)]),
    (py!"CONFIG_A+", [(py!"use CONFIG_A", none),
      (py!"use CONFIG_B+", none)]),
    (py!"CONFIG_B", [(py!"module-purge", none),
      (py!"module-use", some py!"src/setenvironment/unittests/modulefiles"),
      (py!"module-load   gcc A", some py!"4.8.4"),
      (py!"module-load   boost", some py!"1.10.1"),
      (py!"module-load   python A", some py!"3.5.3"),
      (py!"module-load   gcc B", some py!"4.8.4"),
      (py!"module-unload boost", some py!""),
      (py!"module-unload python", some py!""),
      (py!"module-load   python B", some py!"3.9.0"),
      (py!"module-swap   gcc", some py!"gcc/7.3.0"),
      (py!"module-remove python", some py!"")]),
    (py!"CONFIG_B+", [(py!"use CONFIG_B", none),
      (py!"use CONFIG_A+", none)]),
    (py!"CONFIG_TEST_ENVVAR_REMOVE", [(py!"module-use", some py!"/foo/bar/baz"),
      (py!"envvar-set     FOO", some py!"bar"),
      (py!"envvar-append  FOO", some py!"baz"),
      (py!"envvar-prepend FOO", some py!"foo"),
      (py!"envvar-set     BAR", some py!"foo"),
      (py!"envvar-remove  FOO", none),
      (py!"envvar-remove  UNKNOWN", none)]),
    (py!"ENVVAR_SET_FOO", [(py!"envvar-set FOO", some py!"BAR")]),
    (py!"MODULE_USE_BADPATH", [(py!"module-use", some py!"this/is/a/bad/path")]),
    (py!"MODULE_LOAD_NOEXIST", [(py!"module-load gcc", some py!"1.2.3")]),
    (py!"MODULE_LOAD_OK", [(py!"module-use", some py!"src/setenvironment/unittests/modulefiles"),
      (py!"module-load gcc", some py!"7.3.0")]),
    (py!"ENVVAR_VAR_EXPANSION", [(py!"envvar-set ENVVAR_PARAM_01", some py!"\"AAA\""),
      (py!"envvar-set ENVVAR_PARAM_02", some py!"\"B${ENVVAR_PARAM_01}B\""),
      (py!"envvar-set ENVVAR_PARAM_03", some py!"${ENVVAR_PARAM_01} -- ${ENVVAR_PARAM_02} -- ${ADFASF}")]),
    (py!"ENVVAR_VAR_EXPANSION_BAD", [(py!"envvar-set ENVVAR_PARAM_01", some py!"\"B${ENVVAR_PARAM_MISSING}B\"")]),
    (py!"CONFIG_ENVVAR_WITH_GENERIC_OPTION", [(py!"envvar-set     FOO", some py!"bar"),
      (py!"envvar-append  FOO", some py!"baz"),
      (py!"envvar-prepend FOO", some py!"foo"),
      (py!"key1", some py!"value1")]),
    (py!"ENVVAR_UNSET_TEST", [(py!"envvar-set     FOO", some py!"bar"),
      (py!"envvar-unset   FOO", none),
      (py!"envvar-unset   FOO B", none)]),
    (py!"ENVVAR_REMOVE_SUBSTR_TEST", [(py!"envvar-set FOO", some py!"BAAAB"),
      (py!"envvar-remove-substr FOO", some py!"A")]),
    (py!"ENVVAR_REMOVE_SUBSTR_TEST_PATHS", [(py!"envvar-set TEST_SETENVIRONMENT_PATH1", some py!"/foo:/bar/baz:/bif"),
      (py!"envvar-remove-substr TEST_SETENVIRONMENT_PATH1", some py!"/bar/baz"),
      (py!"envvar-set TEST_SETENVIRONMENT_PATH2", some py!"/foo:/bar:/bar/baz:/bif"),
      (py!"envvar-remove-substr TEST_SETENVIRONMENT_PATH2", some py!"/bar")]),
    (py!"ENVVAR_REMOVE_SUBSTR_TEST_NO_ENVVAR", [(py!"envvar-unset FOO", none),
      (py!"envvar-remove-substr FOO", some py!"MEH!")]),
    (py!"ENVVAR_REMOVE_PATH_ENTRY_TEST", [(py!"envvar_set TEST_PATH1", some py!"/foo:/bar:/bar/baz:/bar:/bif"),
      (py!"envvar-remove-path-entry TEST_PATH1", some py!"/bar"),
      (py!"envvar-set TEST_PATH2", some py!"/foo:/bar:/bar/baz:/bar:/bif"),
      (py!"envvar-remove-path-entry TEST_PATH2", some py!"/this/path/does/not/exist"),
      (py!"envvar-set TEST_PATH3", some py!"/foo:/bar:/bar/baz:/bar:/bif"),
      (py!"envvar-remove-path-entry TEST_PATH3", some py!"/bar/baz"),
      (py!"envvar-remove-path-entry TEST_PATH_NO_EXIST", some py!"/biz")]),
    (py!"ENVVAR_FIND_IN_PATH_TEST", [(py!"envvar-set          TEST_ENVVAR_EXE", some py!"ls"),
      (py!"envvar-find-in-path TEST_ENVVAR_PATH", some py!"${TEST_ENVVAR_EXE}"),
      (py!"envvar-find-in-path TEST_ENVVAR_NOTFOUND", some py!"nonexistent-app")]),
    (py!"ENVVAR_ASSERT_NOT_EMPTY", [(py!"envvar-set TEST_ENVVAR_VALUE_01", some py!"FOO"),
      (py!"envvar-assert-not-empty TEST_ENVVAR_VALUE_01", none),
      (py!"envvar-set TEST_ENVVAR_VALUE_02", some py!""),
      (py!"envvar-assert-not-empty TEST_ENVVAR_VALUE_02", none),
      (py!"envvar-set TEST_ENVVAR_VALUE_03", some py!""),
      (py!"envvar-assert-not-empty TEST_ENVVAR_VALUE_03", some py!"ERROR - TEST_ENVVAR_VALUE_03 is missing or empty."),
      (py!"envvar-unset TEST_ENVVAR_VALUE_04", none),
      (py!"envvar-assert-not-empty TEST_ENVVAR_VALUE_04", none),
      (py!"envvar-unset TEST_ENVVAR_VALUE_05", none),
      (py!"envvar-assert-not-empty TEST_ENVVAR_VALUE_05", some py!"ERROR - TEST_ENVVAR_VALUE_05 is missing or empty.")]),
    (py!"ENVVAR_ASSERT_NOT_EMPTY_02", [(py!"envvar-unset TEST_ENVVAR", none),
      (py!"envvar-assert-not-empty TEST_ENVVAR", some py!"\"MY CUSTOM ERROR MESSAGE\"")]),
    (py!"ENVVAR_SET_IF_EMPTY_01", [(py!"envvar-unset FOO_VAR", none),
      (py!"envvar-unset BAR_VAR", none),
      (py!"envvar-unset BAZ_VAR", none),
      (py!"envvar-unset BIF_VAR", none),
      (py!"envvar-set FOO_VAR", some py!"FOO_VAL"),
      (py!"envvar-set BAR_VAR", some py!""),
      (py!"envvar-set-if-empty FOO_VAR", some py!"BAR_VAL"),
      (py!"envvar-set-if-empty BAR_VAR", some py!"BAR_VAL"),
      (py!"envvar-set-if-empty BAZ_VAR", some py!"BAZ_VAL"),
      (py!"envvar-set-if-empty BIF_VAR", some py!"")]),
    (py!"MODULE_LOAD_NO_VERSION", [(py!"module-unload gcc", none),
      (py!"module-unload boost", none),
      (py!"module-load gcc", none),
      (py!"module-load boost", some py!""),
      (py!"envvar-assert-not-empty TEST_SETENVIRONMENT_GCC_VER", none)]),
    (py!"BASH_ENV_VAL_WITH_SPECIAL_CHARS_NOT_INTERPRETED", [(py!"envvar-set          SEMICOLON_SET", some py!"value_with;semicolon"),
      (py!"envvar-set          ASTERISK_SET", some py!"value_with*asterisk"),
      (py!"envvar-set-if-empty SEMICOLON_SET_IF_EMPTY", some py!"value_with;semicolon"),
      (py!"envvar-set-if-empty ASTERISK_SET_IF_EMPTY", some py!"value_with*asterisk")])]
  commonName := py!"CONFIGPARSERENHANCED_COMMON"

/-- The reader of the model finds the same. -/
example : (loadFiles (fun _ => .file ini) (some [py!"test.ini"]) [['='], [':']]).1.toOption = some cfg := by
  decide +kernel

/-- A system where the only executable is `ls`, and where the `module` command does nothing. The headers of
the scripts are parameters of the model: here a short text stands for them. -/
def sys : Sys where
  which _ x := if x = py!"ls" then some py!"/bin/ls" else none
  module _ := pure 0
  bashHeader := py!"<header>"
  pythonHeader := py!"<header>"

/-- The object at an exception control level. -/
def E (level : Nat) : Env Shared Actions := SetEnv.env cfg { level := level, debug := 5 }

/-- `parser = SetEnvironment(filename)` in an environment with one variable. -/
def start (level : Nat) : State := State.fresh (E level) [(py!"HOME", py!"/home/me")] []

/-- One operation on a new object. -/
def one (level : Nat) (op : Op) : Out Val × State := op.exec sys (E level) 60 (start level)

/-- `parser.actions[s]` after `parser.parse_section(s)`. -/
def actionsAfter (s : Str) : Option (List Action) :=
  Dict.get? (one 4 (.ed (.parseSection s true true))).2.obj.self s

/-- The environment variable after `parser.apply(section)`. -/
def envAfter (s name : Str) : Option Str := Dict.get? (one 5 (.apply s)).2.environ name

/-- The file that `write_actions_to_file` leaves, after `parse_section`. -/
def written (s : Str) (hdr body sheb : Bool) (interp : Str) : Out Val × Option Str :=
  let st := (one 4 (.ed (.parseSection s true true))).2
  let r := Op.exec sys (E 4) 60 (.write py!"out" s hdr body sheb interp) st
  (r.1, Dict.get? r.2.files py!"out")

/-- test_SetEnvironment.py:186 test_SetEnvironment_method_parse_all_sections -/
example : Dict.get? (one 4 (.ed .parseAll)).2.obj.self py!"ENVVAR_SET_FOO" =
    some [.envvar py!"envvar_set" py!"FOO" (some py!"BAR")] := by decide +kernel

/-- test_SetEnvironment.py:351 test_SetEnvironment_handler_envvar_remove -/
example : actionsAfter py!"CONFIG_TEST_ENVVAR_REMOVE" =
    some [.module py!"module_use" (none) (some py!"/foo/bar/baz"), .envvar py!"envvar_set" py!"BAR" (some py!"foo")] := by decide +kernel

/-- test_SetEnvironment.py:461 test_SetEnvironment_method_apply_envvar_test_01 -/
example : envAfter py!"CONFIG_A" py!"BAR" =
    some py!"foo" := by decide +kernel

/-- test_SetEnvironment.py:491 test_SetEnvironment_method_apply_envvar_test_02 -/
example : envAfter py!"ENVVAR_UNSET_TEST" py!"FOO" =
    none := by decide +kernel

/-- test_SetEnvironment.py:634 test_SetEnvironment_method_apply_envvar_expansion -/
example : envAfter py!"ENVVAR_VAR_EXPANSION" py!"ENVVAR_PARAM_01" =
    some py!"AAA" := by decide +kernel

/-- test_SetEnvironment.py:634 test_SetEnvironment_method_apply_envvar_expansion -/
example : envAfter py!"ENVVAR_VAR_EXPANSION" py!"ENVVAR_PARAM_02" =
    some py!"BAAAB" := by decide +kernel

/-- test_SetEnvironment.py:634 test_SetEnvironment_method_apply_envvar_expansion -/
example : envAfter py!"ENVVAR_VAR_EXPANSION" py!"ENVVAR_PARAM_03" =
    some py!"AAA -- BAAAB -- ${ADFASF}" := by decide +kernel

/-- test_SetEnvironment.py:848 test_SetEnvironment_parse_section_generic_options_missing -/
example : (one 4 (.ed (.parseSection py!"CONFIG_A" true true))).1 =
    .ok (.ed (.shared (some [.envvar py!"envvar_set" py!"FOO" (some py!"bar"), .envvar py!"envvar_append" py!"FOO" (some py!"baz"), .envvar py!"envvar_prepend" py!"FOO" (some py!"foo"), .envvar py!"envvar_set" py!"BAR" (some py!"foo"), .envvar py!"envvar_remove_substr" py!"FOO" (some py!"bar"), .envvar py!"envvar_unset" py!"FOO" (none)]))) := by decide +kernel

/-- test_SetEnvironment.py:848 test_SetEnvironment_parse_section_generic_options_missing -/
example : (one 4 (.ed (.getItem py!"CONFIG_A"))).1 =
    .ok (.ed (.opts [])) := by decide +kernel

/-- test_SetEnvironment.py:848 test_SetEnvironment_parse_section_generic_options_missing -/
example : Dict.get? (one 4 (.ed (.getItem py!"CONFIG_A"))).2.obj.self py!"CONFIG_A" =
    some [.envvar py!"envvar_set" py!"FOO" (some py!"bar"), .envvar py!"envvar_append" py!"FOO" (some py!"baz"), .envvar py!"envvar_prepend" py!"FOO" (some py!"foo"), .envvar py!"envvar_set" py!"BAR" (some py!"foo"), .envvar py!"envvar_remove_substr" py!"FOO" (some py!"bar"), .envvar py!"envvar_unset" py!"FOO" (none)] := by decide +kernel

/-- test_SetEnvironment.py:879 test_SetEnvironment_parse_section_generic_options_exist -/
example : (one 4 (.ed (.parseSection py!"CONFIG_ENVVAR_WITH_GENERIC_OPTION" true true))).1 =
    .ok (.ed (.shared (some [.envvar py!"envvar_set" py!"FOO" (some py!"bar"), .envvar py!"envvar_append" py!"FOO" (some py!"baz"), .envvar py!"envvar_prepend" py!"FOO" (some py!"foo")]))) := by decide +kernel

/-- test_SetEnvironment.py:879 test_SetEnvironment_parse_section_generic_options_exist -/
example : (one 4 (.ed (.getItem py!"CONFIG_ENVVAR_WITH_GENERIC_OPTION"))).1 =
    .ok (.ed (.opts [(py!"key1", some py!"value1")])) := by decide +kernel

/-- test_SetEnvironment.py:945 test_SetEnvironment_helper_gen_actions_script_nohdr: the test strips both sides -/
example : (one 5 (.script py!"CONFIG_A" false true false py!"bash")).1 =
    .ok (.str py!"# -------------------------------------------------\n#   S E T E N V I R O N M E N T   C O M M A N D S\n# -------------------------------------------------\nenvvar_op set \"FOO\" \"bar\"\nenvvar_op append \"FOO\" \"baz\"\nenvvar_op prepend \"FOO\" \"foo\"\nenvvar_op set \"BAR\" \"foo\"\nenvvar_op remove_substr \"FOO\" \"bar\"\nenvvar_op unset \"FOO\"\n\n\n") := by decide +kernel

/-- test_SetEnvironment.py:993 test_SetEnvironment_helper_gen_actions_script_badinterp -/
example : (one 5 (.script py!"CONFIG_A" true true true py!"invalid_interpreter")).1 =
    .exc .valueError := by decide +kernel

/-- test_SetEnvironment.py:993 test_SetEnvironment_helper_gen_actions_script_badinterp -/
example : (one 2 (.script py!"CONFIG_A" true true true py!"invalid_interpreter")).1 =
    .ok (.str []) := by decide +kernel

/-- test_SetEnvironment.py:1265 test_SetEnvironment_handler_envvar_set_if_empty_01 -/
example : envAfter py!"ENVVAR_SET_IF_EMPTY_01" py!"FOO_VAR" =
    some py!"FOO_VAL" := by decide +kernel

/-- test_SetEnvironment.py:1265 test_SetEnvironment_handler_envvar_set_if_empty_01 -/
example : envAfter py!"ENVVAR_SET_IF_EMPTY_01" py!"BAR_VAR" =
    some py!"BAR_VAL" := by decide +kernel

/-- test_SetEnvironment.py:1265 test_SetEnvironment_handler_envvar_set_if_empty_01 -/
example : envAfter py!"ENVVAR_SET_IF_EMPTY_01" py!"BAZ_VAR" =
    some py!"BAZ_VAL" := by decide +kernel

/-- test_SetEnvironment.py:1265 test_SetEnvironment_handler_envvar_set_if_empty_01 -/
example : envAfter py!"ENVVAR_SET_IF_EMPTY_01" py!"BIF_VAR" =
    some py!"" := by decide +kernel

/-- test_SetEnvironment.py:1378 test_SetEnvironment_handler_envvar_remove_substr -/
example : envAfter py!"ENVVAR_REMOVE_SUBSTR_TEST" py!"FOO" =
    some py!"BB" := by decide +kernel

/-- test_SetEnvironment.py:1413 test_SetEnvironment_handler_envvar_remove_substr_envvar_missing -/
example : envAfter py!"ENVVAR_REMOVE_SUBSTR_TEST_NO_ENVVAR" py!"FOO" =
    none := by decide +kernel

/-- test_SetEnvironment.py:1445 test_SetEnvironment_handler_envvar_remove_path_entry -/
example : envAfter py!"ENVVAR_REMOVE_PATH_ENTRY_TEST" py!"TEST_PATH1" =
    some py!"/foo:/bar/baz:/bif" := by decide +kernel

/-- test_SetEnvironment.py:1445 test_SetEnvironment_handler_envvar_remove_path_entry -/
example : envAfter py!"ENVVAR_REMOVE_PATH_ENTRY_TEST" py!"TEST_PATH2" =
    some py!"/foo:/bar:/bar/baz:/bar:/bif" := by decide +kernel

/-- test_SetEnvironment.py:1445 test_SetEnvironment_handler_envvar_remove_path_entry -/
example : envAfter py!"ENVVAR_REMOVE_PATH_ENTRY_TEST" py!"TEST_PATH3" =
    some py!"/foo:/bar:/bar:/bif" := by decide +kernel

/-- test_SetEnvironment.py:1491 test_SetEnvironment_handler_envvar_assert_not_empty_01 -/
example : (one 4 (.apply py!"ENVVAR_ASSERT_NOT_EMPTY")).1 =
    .exc .valueError := by decide +kernel

/-- test_SetEnvironment.py:1556 test_SetEnvironment_handler_envvar_assert_not_empty_02 -/
example : (one 4 (.apply py!"ENVVAR_ASSERT_NOT_EMPTY_02")).1 =
    .exc .valueError := by decide +kernel

/-- test_SetEnvironment.py:1824 test_SetEnvironment_handler_envvar_find_in_path -/
example : envAfter py!"ENVVAR_FIND_IN_PATH_TEST" py!"TEST_ENVVAR_PATH" =
    some py!"/bin/ls" := by decide +kernel

/-- test_SetEnvironment.py:1824 test_SetEnvironment_handler_envvar_find_in_path -/
example : envAfter py!"ENVVAR_FIND_IN_PATH_TEST" py!"TEST_ENVVAR_NOTFOUND" =
    some py!"" := by decide +kernel

/-- test_SetEnvironment.py:1901 test_SetEnvironment_module_load_default -/
example : (((actionsAfter py!"MODULE_LOAD_NO_VERSION").getD []).drop 2 |>.take 2) =
    [.module py!"module_load" (some py!"gcc") (none), .module py!"module_load" (some py!"boost") (some py!"")] := by decide +kernel

/-- test_SetEnvironment.py:1751 test_SetEnvironment_write_actions_to_file_bad_interp -/
example : (one 5 (.write py!"___tmp.txt" py!"CONFIG_A+" true true true py!"not a valid interpreter")).1 =
    .exc .valueError := by decide +kernel

/-- test_SetEnvironment.py:1751 test_SetEnvironment_write_actions_to_file_bad_interp -/
example : (one 2 (.write py!"___tmp.txt" py!"CONFIG_A+" true true true py!"not a valid interpreter")).1 =
    .ok (.int 1) := by decide +kernel

/-- test_SetEnvironment.py:1583 test_SetEnvironment_write_actions_to_file: _config-bash-inc_hdr-inc_body-inc_shbng.sh -/
example : written py!"CONFIG_A+" true true true py!"bash" =
    (.ok (.int 0), some (py!"#!/usr/bin/env bash\n<header>\n\n# -------------------------------------------------\n#   S E T E N V I R O N M E N T   C O M M A N D S\n# -------------------------------------------------\nenvvar_op set \"FOO\" \"bar\"\nenvvar_op append \"FOO\" \"baz\"\nenvvar_op prepend \"FOO\" \"foo\"\nenvvar_op set \"BAR\" \"foo\"\nenvvar_op remove_substr \"FOO\" \"bar\"\nenvvar_op unset \"FOO\"\nmodule purge\nmodule use src/setenvironment/unittests/modulefiles\nmodule load gcc/4.8.4\nmodule load boost/1.10.1\nmodule load gcc/4.8.4\nmodule unload boost\nmodule swap gcc gcc/7.3.0\n\n\n")) := by decide +kernel

/-- test_SetEnvironment.py:1583 test_SetEnvironment_write_actions_to_file: _config-bash-inc_hdr-inc_body-exc_shbng.sh -/
example : written py!"CONFIG_A+" true true false py!"bash" =
    (.ok (.int 0), some (py!"<header>\n\n# -------------------------------------------------\n#   S E T E N V I R O N M E N T   C O M M A N D S\n# -------------------------------------------------\nenvvar_op set \"FOO\" \"bar\"\nenvvar_op append \"FOO\" \"baz\"\nenvvar_op prepend \"FOO\" \"foo\"\nenvvar_op set \"BAR\" \"foo\"\nenvvar_op remove_substr \"FOO\" \"bar\"\nenvvar_op unset \"FOO\"\nmodule purge\nmodule use src/setenvironment/unittests/modulefiles\nmodule load gcc/4.8.4\nmodule load boost/1.10.1\nmodule load gcc/4.8.4\nmodule unload boost\nmodule swap gcc gcc/7.3.0\n\n\n")) := by decide +kernel

/-- test_SetEnvironment.py:1583 test_SetEnvironment_write_actions_to_file: _config-bash-inc_hdr-exc_body-inc_shbng.sh -/
example : written py!"CONFIG_A+" true false true py!"bash" =
    (.ok (.int 0), some (py!"#!/usr/bin/env bash\n<header>\n\n")) := by decide +kernel

/-- test_SetEnvironment.py:1583 test_SetEnvironment_write_actions_to_file: _config-bash-inc_hdr-exc_body-exc_shbng.sh -/
example : written py!"CONFIG_A+" true false false py!"bash" =
    (.ok (.int 0), some (py!"<header>\n\n")) := by decide +kernel

/-- test_SetEnvironment.py:1583 test_SetEnvironment_write_actions_to_file: _config-bash-exc_hdr-inc_body-inc_shbng.sh -/
example : written py!"CONFIG_A+" false true true py!"bash" =
    (.ok (.int 0), some (py!"#!/usr/bin/env bash\n# -------------------------------------------------\n#   S E T E N V I R O N M E N T   C O M M A N D S\n# -------------------------------------------------\nenvvar_op set \"FOO\" \"bar\"\nenvvar_op append \"FOO\" \"baz\"\nenvvar_op prepend \"FOO\" \"foo\"\nenvvar_op set \"BAR\" \"foo\"\nenvvar_op remove_substr \"FOO\" \"bar\"\nenvvar_op unset \"FOO\"\nmodule purge\nmodule use src/setenvironment/unittests/modulefiles\nmodule load gcc/4.8.4\nmodule load boost/1.10.1\nmodule load gcc/4.8.4\nmodule unload boost\nmodule swap gcc gcc/7.3.0\n\n\n")) := by decide +kernel

/-- test_SetEnvironment.py:1583 test_SetEnvironment_write_actions_to_file: _config-bash-exc_hdr-inc_body-exc_shbng.sh -/
example : written py!"CONFIG_A+" false true false py!"bash" =
    (.ok (.int 0), some (py!"# -------------------------------------------------\n#   S E T E N V I R O N M E N T   C O M M A N D S\n# -------------------------------------------------\nenvvar_op set \"FOO\" \"bar\"\nenvvar_op append \"FOO\" \"baz\"\nenvvar_op prepend \"FOO\" \"foo\"\nenvvar_op set \"BAR\" \"foo\"\nenvvar_op remove_substr \"FOO\" \"bar\"\nenvvar_op unset \"FOO\"\nmodule purge\nmodule use src/setenvironment/unittests/modulefiles\nmodule load gcc/4.8.4\nmodule load boost/1.10.1\nmodule load gcc/4.8.4\nmodule unload boost\nmodule swap gcc gcc/7.3.0\n\n\n")) := by decide +kernel

/-- test_SetEnvironment.py:1583 test_SetEnvironment_write_actions_to_file: _config-bash-exc_hdr-exc_body-inc_shbng.sh -/
example : written py!"CONFIG_A+" false false true py!"bash" =
    (.ok (.int 0), some (py!"")) := by decide +kernel

/-- test_SetEnvironment.py:1583 test_SetEnvironment_write_actions_to_file: _config-bash-exc_hdr-exc_body-exc_shbng.sh -/
example : written py!"CONFIG_A+" false false false py!"bash" =
    (.ok (.int 0), some (py!"")) := by decide +kernel

/-- test_SetEnvironment.py:1583 test_SetEnvironment_write_actions_to_file: _config-python-inc_hdr-inc_body-inc_shbng.py -/
example : written py!"CONFIG_A+" true true true py!"python" =
    (.ok (.int 0), some (py!"#!/usr/bin/env python3\n<header>\n\n# -------------------------------------------------\n#   S E T E N V I R O N M E N T   C O M M A N D S\n# -------------------------------------------------\nenvvar_op(\"set\",\"FOO\",\"bar\")\nenvvar_op(\"append\",\"FOO\",\"baz\")\nenvvar_op(\"prepend\",\"FOO\",\"foo\")\nenvvar_op(\"set\",\"BAR\",\"foo\")\nenvvar_op(\"remove_substr\",\"FOO\",\"bar\")\nenvvar_op(\"unset\",\"FOO\")\nModuleHelper.module(\"purge\")\nModuleHelper.module(\"use\",\"src/setenvironment/unittests/modulefiles\")\nModuleHelper.module(\"load\",\"gcc/4.8.4\")\nModuleHelper.module(\"load\",\"boost/1.10.1\")\nModuleHelper.module(\"load\",\"gcc/4.8.4\")\nModuleHelper.module(\"unload\",\"boost\")\nModuleHelper.module(\"swap\",\"gcc\",\"gcc/7.3.0\")\n\n\n")) := by decide +kernel

/-- test_SetEnvironment.py:1583 test_SetEnvironment_write_actions_to_file: _config-python-inc_hdr-inc_body-exc_shbng.py -/
example : written py!"CONFIG_A+" true true false py!"python" =
    (.ok (.int 0), some (py!"<header>\n\n# -------------------------------------------------\n#   S E T E N V I R O N M E N T   C O M M A N D S\n# -------------------------------------------------\nenvvar_op(\"set\",\"FOO\",\"bar\")\nenvvar_op(\"append\",\"FOO\",\"baz\")\nenvvar_op(\"prepend\",\"FOO\",\"foo\")\nenvvar_op(\"set\",\"BAR\",\"foo\")\nenvvar_op(\"remove_substr\",\"FOO\",\"bar\")\nenvvar_op(\"unset\",\"FOO\")\nModuleHelper.module(\"purge\")\nModuleHelper.module(\"use\",\"src/setenvironment/unittests/modulefiles\")\nModuleHelper.module(\"load\",\"gcc/4.8.4\")\nModuleHelper.module(\"load\",\"boost/1.10.1\")\nModuleHelper.module(\"load\",\"gcc/4.8.4\")\nModuleHelper.module(\"unload\",\"boost\")\nModuleHelper.module(\"swap\",\"gcc\",\"gcc/7.3.0\")\n\n\n")) := by decide +kernel

/-- test_SetEnvironment.py:1583 test_SetEnvironment_write_actions_to_file: _config-python-inc_hdr-exc_body-inc_shbng.py -/
example : written py!"CONFIG_A+" true false true py!"python" =
    (.ok (.int 0), some (py!"#!/usr/bin/env python3\n<header>\n\n")) := by decide +kernel

/-- test_SetEnvironment.py:1583 test_SetEnvironment_write_actions_to_file: _config-python-inc_hdr-exc_body-exc_shbng.py -/
example : written py!"CONFIG_A+" true false false py!"python" =
    (.ok (.int 0), some (py!"<header>\n\n")) := by decide +kernel

/-- test_SetEnvironment.py:1583 test_SetEnvironment_write_actions_to_file: _config-python-exc_hdr-inc_body-inc_shbng.py -/
example : written py!"CONFIG_A+" false true true py!"python" =
    (.ok (.int 0), some (py!"#!/usr/bin/env python3\n# -------------------------------------------------\n#   S E T E N V I R O N M E N T   C O M M A N D S\n# -------------------------------------------------\nenvvar_op(\"set\",\"FOO\",\"bar\")\nenvvar_op(\"append\",\"FOO\",\"baz\")\nenvvar_op(\"prepend\",\"FOO\",\"foo\")\nenvvar_op(\"set\",\"BAR\",\"foo\")\nenvvar_op(\"remove_substr\",\"FOO\",\"bar\")\nenvvar_op(\"unset\",\"FOO\")\nModuleHelper.module(\"purge\")\nModuleHelper.module(\"use\",\"src/setenvironment/unittests/modulefiles\")\nModuleHelper.module(\"load\",\"gcc/4.8.4\")\nModuleHelper.module(\"load\",\"boost/1.10.1\")\nModuleHelper.module(\"load\",\"gcc/4.8.4\")\nModuleHelper.module(\"unload\",\"boost\")\nModuleHelper.module(\"swap\",\"gcc\",\"gcc/7.3.0\")\n\n\n")) := by decide +kernel

/-- test_SetEnvironment.py:1583 test_SetEnvironment_write_actions_to_file: _config-python-exc_hdr-inc_body-exc_shbng.py -/
example : written py!"CONFIG_A+" false true false py!"python" =
    (.ok (.int 0), some (py!"# -------------------------------------------------\n#   S E T E N V I R O N M E N T   C O M M A N D S\n# -------------------------------------------------\nenvvar_op(\"set\",\"FOO\",\"bar\")\nenvvar_op(\"append\",\"FOO\",\"baz\")\nenvvar_op(\"prepend\",\"FOO\",\"foo\")\nenvvar_op(\"set\",\"BAR\",\"foo\")\nenvvar_op(\"remove_substr\",\"FOO\",\"bar\")\nenvvar_op(\"unset\",\"FOO\")\nModuleHelper.module(\"purge\")\nModuleHelper.module(\"use\",\"src/setenvironment/unittests/modulefiles\")\nModuleHelper.module(\"load\",\"gcc/4.8.4\")\nModuleHelper.module(\"load\",\"boost/1.10.1\")\nModuleHelper.module(\"load\",\"gcc/4.8.4\")\nModuleHelper.module(\"unload\",\"boost\")\nModuleHelper.module(\"swap\",\"gcc\",\"gcc/7.3.0\")\n\n\n")) := by decide +kernel

/-- test_SetEnvironment.py:1583 test_SetEnvironment_write_actions_to_file: _config-python-exc_hdr-exc_body-inc_shbng.py -/
example : written py!"CONFIG_A+" false false true py!"python" =
    (.ok (.int 0), some (py!"")) := by decide +kernel

/-- test_SetEnvironment.py:1583 test_SetEnvironment_write_actions_to_file: _config-python-exc_hdr-exc_body-exc_shbng.py -/
example : written py!"CONFIG_A+" false false false py!"python" =
    (.ok (.int 0), some (py!"")) := by decide +kernel

/-- test_SetEnvironment.py:1265 test_SetEnvironment_handler_envvar_set_if_empty_01: _sie-bash-inc_hdr-inc_body-inc_shbng.sh -/
example : written py!"ENVVAR_SET_IF_EMPTY_01" true true true py!"bash" =
    (.ok (.int 0), some (py!"#!/usr/bin/env bash\n<header>\n\n# -------------------------------------------------\n#   S E T E N V I R O N M E N T   C O M M A N D S\n# -------------------------------------------------\nenvvar_op unset \"FOO_VAR\"\nenvvar_op unset \"BAR_VAR\"\nenvvar_op unset \"BAZ_VAR\"\nenvvar_op unset \"BIF_VAR\"\nenvvar_op set \"FOO_VAR\" \"FOO_VAL\"\nenvvar_op set \"BAR_VAR\" \"\"\nenvvar_op set_if_empty \"FOO_VAR\" \"BAR_VAL\"\nenvvar_op set_if_empty \"BAR_VAR\" \"BAR_VAL\"\nenvvar_op set_if_empty \"BAZ_VAR\" \"BAZ_VAL\"\nenvvar_op set_if_empty \"BIF_VAR\" \"\"\n\n\n")) := by decide +kernel

/-- test_SetEnvironment.py:1491 test_SetEnvironment_handler_envvar_assert_not_empty_01: _ane-bash-inc_hdr-inc_body-inc_shbng.sh -/
example : written py!"ENVVAR_ASSERT_NOT_EMPTY" true true true py!"bash" =
    (.ok (.int 0), some (py!"#!/usr/bin/env bash\n<header>\n\n# -------------------------------------------------\n#   S E T E N V I R O N M E N T   C O M M A N D S\n# -------------------------------------------------\nenvvar_op set \"TEST_ENVVAR_VALUE_01\" \"FOO\"\nenvvar_op assert_not_empty \"TEST_ENVVAR_VALUE_01\" \"\"\nenvvar_op set \"TEST_ENVVAR_VALUE_02\" \"\"\nenvvar_op assert_not_empty \"TEST_ENVVAR_VALUE_02\" \"\"\nenvvar_op set \"TEST_ENVVAR_VALUE_03\" \"\"\nenvvar_op assert_not_empty \"TEST_ENVVAR_VALUE_03\" \"ERROR - TEST_ENVVAR_VALUE_03 is missing or empty.\"\nenvvar_op unset \"TEST_ENVVAR_VALUE_04\"\nenvvar_op assert_not_empty \"TEST_ENVVAR_VALUE_04\" \"\"\nenvvar_op unset \"TEST_ENVVAR_VALUE_05\"\nenvvar_op assert_not_empty \"TEST_ENVVAR_VALUE_05\" \"ERROR - TEST_ENVVAR_VALUE_05 is missing or empty.\"\n\n\n")) := by decide +kernel

/-- test_SetEnvironment.py:1265 test_SetEnvironment_handler_envvar_set_if_empty_01: _sie-python-inc_hdr-inc_body-inc_shbng.py -/
example : written py!"ENVVAR_SET_IF_EMPTY_01" true true true py!"python" =
    (.ok (.int 0), some (py!"#!/usr/bin/env python3\n<header>\n\n# -------------------------------------------------\n#   S E T E N V I R O N M E N T   C O M M A N D S\n# -------------------------------------------------\nenvvar_op(\"unset\",\"FOO_VAR\")\nenvvar_op(\"unset\",\"BAR_VAR\")\nenvvar_op(\"unset\",\"BAZ_VAR\")\nenvvar_op(\"unset\",\"BIF_VAR\")\nenvvar_op(\"set\",\"FOO_VAR\",\"FOO_VAL\")\nenvvar_op(\"set\",\"BAR_VAR\",\"\")\nenvvar_op(\"set_if_empty\",\"FOO_VAR\",\"BAR_VAL\")\nenvvar_op(\"set_if_empty\",\"BAR_VAR\",\"BAR_VAL\")\nenvvar_op(\"set_if_empty\",\"BAZ_VAR\",\"BAZ_VAL\")\nenvvar_op(\"set_if_empty\",\"BIF_VAR\",\"\")\n\n\n")) := by decide +kernel

/-- test_SetEnvironment.py:1491 test_SetEnvironment_handler_envvar_assert_not_empty_01: _ane-python-inc_hdr-inc_body-inc_shbng.py -/
example : written py!"ENVVAR_ASSERT_NOT_EMPTY" true true true py!"python" =
    (.ok (.int 0), some (py!"#!/usr/bin/env python3\n<header>\n\n# -------------------------------------------------\n#   S E T E N V I R O N M E N T   C O M M A N D S\n# -------------------------------------------------\nenvvar_op(\"set\",\"TEST_ENVVAR_VALUE_01\",\"FOO\")\nenvvar_op(\"assert_not_empty\",\"TEST_ENVVAR_VALUE_01\",\"\")\nenvvar_op(\"set\",\"TEST_ENVVAR_VALUE_02\",\"\")\nenvvar_op(\"assert_not_empty\",\"TEST_ENVVAR_VALUE_02\",\"\")\nenvvar_op(\"set\",\"TEST_ENVVAR_VALUE_03\",\"\")\nenvvar_op(\"assert_not_empty\",\"TEST_ENVVAR_VALUE_03\",\"ERROR - TEST_ENVVAR_VALUE_03 is missing or empty.\")\nenvvar_op(\"unset\",\"TEST_ENVVAR_VALUE_04\")\nenvvar_op(\"assert_not_empty\",\"TEST_ENVVAR_VALUE_04\",\"\")\nenvvar_op(\"unset\",\"TEST_ENVVAR_VALUE_05\")\nenvvar_op(\"assert_not_empty\",\"TEST_ENVVAR_VALUE_05\",\"ERROR - TEST_ENVVAR_VALUE_05 is missing or empty.\")\n\n\n")) := by decide +kernel

/-- test_SetEnvironment.py:1730 test_SetEnvironment_bash_env_val_with_special_chars_not_interpreted: _special_chars-bash-inc_hdr-inc_body-inc_shbng.sh -/
example : written py!"BASH_ENV_VAL_WITH_SPECIAL_CHARS_NOT_INTERPRETED" true true true py!"bash" =
    (.ok (.int 0), some (py!"#!/usr/bin/env bash\n<header>\n\n# -------------------------------------------------\n#   S E T E N V I R O N M E N T   C O M M A N D S\n# -------------------------------------------------\nenvvar_op set \"SEMICOLON_SET\" \"value_with;semicolon\"\nenvvar_op set \"ASTERISK_SET\" \"value_with*asterisk\"\nenvvar_op set_if_empty \"SEMICOLON_SET_IF_EMPTY\" \"value_with;semicolon\"\nenvvar_op set_if_empty \"ASTERISK_SET_IF_EMPTY\" \"value_with*asterisk\"\n\n\n")) := by decide +kernel

end CPE.Conformance.SetEnvironment

