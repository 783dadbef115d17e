import Verif.Model.Object
/-
Conformance with the unit tests of the repository (src/configparserenhanced/unittests/test_ConfigParserEnhanced.py):
the .ini files of the tests, verbatim, and what the tests expect of ConfigParserEnhanced on them, evaluated on the
model. These are tests of the transcription, not proofs of properties: they show that the model gives what the
authors of the code observed on it.
-/
namespace CPE.Conformance

/-- src/configparserenhanced/unittests/config_test_configparserenhanced.ini -/
def mainIni : Str :=
  py!"#\n# Configuration .ini File\n# =======================\n#\n# This file is organized by sections [section_name] where each section defines\n# a set of key-value pairs.  Keys and values can be separated by ':' or \"=\" delimiters\n# and both keys and values can have spaces.\n#\n# In this application, we split our keys into two values and the value side is handled\n# based on what the `command` is:\n#\n#     <command> <key> : <value>\n#\n# Commands\n# --------\n# - use <SECTION_NAME>:\n#   + Instructs the system to process a different section of the .ini file and insert the\n#     commands it provides into the list of actions to be performed. The system will\n#     recursively process all sections included with cyclic dependency detection to prevent\n#     infinite recursion.\n#   + The <value> parameter is ignored for this command.\n#\n# Tips and Tricks\n# ---------------\n#\n#\n[SECTION-A]\nkey1: value1\nkey2: value2\nkey3: value3\n\n[SECTION-B]\nkey1: value 1\nkey2: value 2\nkey3: value 3\n\n[SECTION C]\nkey 1: value 1\nkey 2: value 2\nkey 3: value 3\n\n[SECTION-A+]\nuse SECTION-A:\nkey4: value4\n\n[SECTION-B+]\nuse SECTION-B:\nkey4: value 4\n\n[SECTION C+]\nuse 'SECTION C' 1:\nkey 4: value 4\n\n[OPERAND_TEST]\nop1              :\nop1 op2          :\nop1 'op2'        :\nop1 'op 2'       :\nop1 op2 op3      :\nop1 'op2' op3    :\nop-1             :\nop-1 op2         :\nop-1 op2 op3     :\nop-1 'op2'       :\nop-1 'op2' op3   :\nop-1 'op 2'      :\nop-1 'op 2' op3  :\nop-1 op-2        :\nop_1 op_2        :\nop1   op2        :\nop1   op2  +++   :\nopA\nop-A\n\n\n\n[BAD_CHAR_IN_OP]\n# 'op1' should not be detected as an 'op' due to the \"''\" character.\n'op1' op2:\n# This should also _not_ parse because '@' is not a valid character for a python function.\nop@1 op2:\n\n\n[CYCLE_TEST_A]\ncta 1: cta 1\nuse CYCLE_TEST_B (1)\nuse CYCLE_TEST_B (2)\n\n[CYCLE_TEST_B]\nctb 1: ctb 1\nuse CYCLE_TEST_C\n\n[CYCLE_TEST_C]\nctc 1: ctc 1\nuse CYCLE_TEST_A\n\n[ENVVAR-PREPEND-TEST]\nenvvar-prepend PATH : /foo/bar/baz\n\n[HANDLER_FAIL_TEST]\ntest_handler_fail :\n\n\n#\n# DEP TESTS\n# - ConfigParserEnhancedDataSection (configdata_parsed)\n#   should parse out to something like this:\n#\n# [DEP-TEST-A]\n# key1: value1-A\n# key2: value1-A\n#\n# [DEP-TEST-B]\n# key1: value1-B\n# key2: value2-A\n#\n[DEP-TEST-A]\nuse DEP-TEST-B:\nkey1: value1-A\nkey2: value2-A\n\n[DEP-TEST-B]\nuse DEP-TEST-A:\nkey1: value1-B\n\n\n# Ambiguous Handler Test Section\n[AMBIGUOUS_HANDLER_TEST]\noperation: Test should define _handler_operation and handler_operation.\n\n\n# Test keys with no-values\n[NOVALUE_TEST]\nkey1:\nkey2\nkey3: value3\n\n\n# Test more key variations\n[KEY_VARIANT_TEST]\nkey1: value1\nkey two: value two\nkey 'three A': value string\nkey four:\nkey five\n\n\n# Test an empty section\n[SEC_EMPTY]\n\n\n# Test a section with only \"handled\" items (no 'generic handler' entries)\n# This also will test calling the same section multiple times\n#   which should be ok since it's not adding a 'back-edge' to the DAG.\n[SEC_ALL_HANDLED]\nuse SEC_EMPTY A\nuse SEC_EMPTY B:\n\n\n# Test section names with `dots` in them.\n# (Issue #10)\n[TEST_SECTION-0.1.0]\nkey-0.1.0 : value-0.1.0\n\n\n[TEST_SECTION-0.2.0]\nuse TEST_SECTION-0.1.0\nkey-0.2.0 : value-0.2.0\n\n\n[EMPTY_SECTION]\n"

/-- src/configparserenhanced/unittests/config_test_configparserenhanced_badkeys.ini -/
def badKeys : Str :=
  py!"#\n# Configuration .ini File (BadKeys)\n# =================================\n#\n# This .ini file is used to test an exception that\n# configparser.ConfigParser will raise when it encounters\n# a file that has a section in it with two keys that are\n# the same.\n#\n#\n\n[SECTION-A]\nkey1: value1\nkey2: value2\nkey1: value3\n\n[SECTION-B]\nkey1: value 1\nkey2: value 2\nkey3: value 3\n\n\n"

/-- src/configparserenhanced/unittests/config_test_configparserenhanced_default.ini -/
def defaultIni : Str :=
  py!"[DEFAULT]\nKey D1: value D1\n\n[SECTION-A]\nkey A1 : value A1\nkey A2 : value A2\nkey A3 : value A3\n\n[SECTION-A+]\nKey D1 : value A+D1\nuse SECTION-A:\nkey A+4: value A+4\nkey A3 : value A+3\n\n\n"

/-- src/configparserenhanced/unittests/config_test_configparserenhanced_validation_01.ini -/
def valid1 : Str :=
  py!"# This test file is used to test\n# - assert_section_all_options_handled\n# - assert_file_all_sections_handled\n# Where there are NO unhandled operations.\n\n[SECTION A]\n\n[SECTION B]\nuse \"SECTION A\"\n\n[SECTION C]\nuse 'SECTION B'\n\n[SECTION D]\nuse 'SECTION C'\n\n"

/-- src/configparserenhanced/unittests/config_test_configparserenhanced_validation_02.ini -/
def valid2 : Str :=
  py!"# This test file is used to test\n# - assert_section_all_options_handled\n# - assert_file_all_sections_handled\n# Where thare are UNHANDLED options that result in\n# regular key:value pairs to be generated.\n# Parsing Sections A and B will pass a check but\n# Checking C, D, or the whole file will trigger an\n# error.\n\n[SECTION A]\n\n[SECTION B]\nuse \"SECTION A\"\n\n[SECTION C]\nuse 'SECTION B'\nkey C-1: Value C-1\n\n[SECTION D]\nuse 'SECTION C'\nkey D-1: Value D-1\n\n"

/-- src/configparserenhanced/unittests/config_test_configparserenhanced_validation_03a.ini -/
def valid3a : Str :=
  py!"# This test file is used to test\n# - assert_section_all_options_handled\n# - assert_file_all_sections_handled\n# Where thare are UNHANDLED options that result in\n# regular key:value pairs to be generated.\n# Parsing Sections A and B will pass a check but\n# Checking C, D, or the whole file will trigger an\n# error.\n\n[SECTION A]\n\n[SECTION B]\nuse \"SECTION A\"\n\n"

/-- src/configparserenhanced/unittests/config_test_configparserenhanced_validation_03b.ini -/
def valid3b : Str :=
  py!"# This test file is used to test\n# - assert_section_all_options_handled\n# - assert_file_all_sections_handled\n# Where thare are UNHANDLED options that result in\n# regular key:value pairs to be generated.\n# Parsing Sections A and B will pass a check but\n# Checking C, D, or the whole file will trigger an\n# error.\n\n[SECTION C]\nuse 'SECTION B'\nkey C-1: Value C-1\n\n[SECTION D]\nuse 'SECTION C'\nkey D-1: Value D-1\n\n"

/-- The files of the tests; the path names are shortened. -/
def disk : FS := fun p =>
  if p = py!"main.ini" then .file mainIni
  else if p = py!"badkeys.ini" then .file badKeys
  else if p = py!"default.ini" then .file defaultIni
  else if p = py!"validation_01.ini" then .file valid1
  else if p = py!"validation_02.ini" then .file valid2
  else if p = py!"validation_03a.ini" then .file valid3a
  else if p = py!"validation_03b.ini" then .file valid3b
  else .absent

/-- The class under test at debug level 5: every entry of the log is recorded. -/
def logging : Env Unit Unit := { baseClass with debug := 5 }

/-- `parser = ConfigParserEnhanced(filename)` followed by some operations: what the client sees and the object after
them. -/
def session (K : Env Unit Unit) (fs : List Str) (l : List FOp) : List (Out (FVal Unit)) × Full Unit Unit :=
  FOp.run K 60 (l.map fun o => (disk, o)) ((Full.new K ()).setFiles (.many (fs.map some))).2

/-- What the client sees. -/
def seen (K : Env Unit Unit) (fs : List Str) (l : List FOp) : List (Out (FVal Unit)) := (session K fs l).1

/-- `parser._loginfo` after `parser.parse_section(s)`. -/
def logOf (K : Env Unit Unit) (s : Str) : List LogEntry :=
  (session K [py!"main.ini"] [.ed (.parseSection s true true)]).2.obj.log

/-- The option data the tests compare with, all values strings or None. -/
def opts (l : List (Str × Option Str)) : Out (FVal Unit) := .ok (.ed (.opts l))

/-- `[d['name'] for d in parser._loginfo if d['type'] == 'section-entry']` -/
def entered (l : List LogEntry) : List Str := l.filterMap fun | .sectionEntry n => some n | _ => none
/-- The same for 'section-exit'. -/
def left (l : List LogEntry) : List Str := l.filterMap fun | .sectionExit n => some n | _ => none
/-- The same for 'handler-entry'. -/
def hEntered (l : List LogEntry) : List Str := l.filterMap fun | .handlerEntry n _ _ => some n | _ => none
/-- The same for 'handler-exit'. -/
def hLeft (l : List LogEntry) : List Str := l.filterMap fun | .handlerExit n _ _ => some n | _ => none
/-- `[(d['op'], d['params']) for d in parser._loginfo if d['type'] == 'section-operation']` -/
def operations (l : List LogEntry) : List (Str × List Str) :=
  l.filterMap fun | .operation o ps => some (o, ps) | _ => none

/-- test_ConfigParserEnhanced.py:227 test_ConfigParserEnhanced_property_inifilepath_empty -/
example : seen baseClass [py!"main.ini"] [.files (.many []), .configdata] =
    [.ok .unit, .exc .valueError] := by decide +kernel

/-- test_ConfigParserEnhanced.py:248 test_ConfigParserEnhanced_property_inifilepath_invalid_entry -/
example : seen baseClass [py!"main.ini"] [.files (.many [none])] =
    [.exc .typeError] := by decide +kernel

/-- test_ConfigParserEnhanced.py:491 test_ConfigParserEnhanced_assert_inifilepath_not_str -/
example : seen baseClass [py!"main.ini"] [.files .badType] =
    [.exc .typeError] := by decide +kernel

/-- test_ConfigParserEnhanced.py:512 test_ConfigParserEnhanced_assert_inifilepath_filenotfound -/
example : seen baseClass [py!"./filenotfound.ini"] [.configdata] =
    [.exc .ioError] := by decide +kernel

/-- test_ConfigParserEnhanced.py:274 test_ConfigParserEnhanced_operand_variations_test -/
example : operations (logOf logging py!"OPERAND_TEST") =
    [(py!"op1", []), (py!"op1", [py!"op2"]), (py!"op1", [py!"op2"]), (py!"op1", [py!"op 2"]), (py!"op1", [py!"op2", py!"op3"]), (py!"op1", [py!"op2", py!"op3"]), (py!"op_1", []), (py!"op_1", [py!"op2"]), (py!"op_1", [py!"op2", py!"op3"]), (py!"op_1", [py!"op2"]), (py!"op_1", [py!"op2", py!"op3"]), (py!"op_1", [py!"op 2"]), (py!"op_1", [py!"op 2", py!"op3"]), (py!"op_1", [py!"op-2"]), (py!"op_1", [py!"op_2"]), (py!"op1", [py!"op2"]), (py!"op1", [py!"op2", py!"+++"]), (py!"opA", []), (py!"op_A", [])] := by decide +kernel

/-- test_ConfigParserEnhanced.py:343 test_ConfigParserEnhanced_keyword_use -/
example : seen logging [py!"main.ini"] [.ed (.parseSection py!"SECTION C+" true true), .ed (.get py!"SECTION C+")] =
    [.ok (.ed (.shared ())), opts [(py!"key 1", some py!"value 1"), (py!"key 2", some py!"value 2"), (py!"key 3", some py!"value 3"), (py!"key 4", some py!"value 4")]] := by decide +kernel

/-- test_ConfigParserEnhanced.py:343 test_ConfigParserEnhanced_keyword_use: the sections entered are the sections left, reversed -/
example : (entered (logOf logging py!"SECTION C+")).reverse =
    left (logOf logging py!"SECTION C+") := by decide +kernel

/-- test_ConfigParserEnhanced.py:343 test_ConfigParserEnhanced_keyword_use -/
example : hEntered (logOf logging py!"SECTION C+") =
    [py!"handler_initialize", py!"_handler_use", py!"_generic_option_handler", py!"_generic_option_handler", py!"_generic_option_handler", py!"_generic_option_handler", py!"handler_finalize"] := by decide +kernel

/-- test_ConfigParserEnhanced.py:343 test_ConfigParserEnhanced_keyword_use -/
example : hLeft (logOf logging py!"SECTION C+") =
    [py!"handler_initialize", py!"_generic_option_handler", py!"_generic_option_handler", py!"_generic_option_handler", py!"_handler_use", py!"_generic_option_handler", py!"handler_finalize"] := by decide +kernel

/-- test_ConfigParserEnhanced.py:401 test_ConfigParserEnhanced_keyword_use_cycle_exists -/
example : entered (logOf logging py!"CYCLE_TEST_A") =
    [py!"CYCLE_TEST_A", py!"CYCLE_TEST_B", py!"CYCLE_TEST_C", py!"CYCLE_TEST_B", py!"CYCLE_TEST_C"] := by decide +kernel

/-- test_ConfigParserEnhanced.py:531 test_ConfigParserEnhanced_parse_section_launch -/
example : seen baseClass [py!"main.ini"] [.ed (.parseSection py!"" true true)] =
    [.exc .valueError] := by decide +kernel

/-- test_ConfigParserEnhanced.py:892 test_ConfigParserEnhanced_assert_parsesection_r_section_missing -/
example : seen baseClass [py!"main.ini"] [.ed (.parseSection py!"blah blah blah" true true)] =
    [.exc .keyError] := by decide +kernel

/-- test_ConfigParserEnhanced.py:911 test_ConfigParserEnhanced_assert_parsesection_r_op_bad_char -/
example : seen baseClass [py!"main.ini"] [.ed (.parseSection py!"BAD_CHAR_IN_OP" true true)] =
    [.ok (.ed (.shared ()))] := by decide +kernel

/-- test_ConfigParserEnhanced.py:977 test_ConfigParserEnhanced_property_configparserdata_parsed -/
example : seen baseClass [py!"main.ini"] [.ed (.getItem py!"NonExistentSection"), .ed (.len), .ed (.options py!"SECTION-A"), .ed (.options py!"NonExistentSection")] =
    [.exc .keyError, .ok (.ed (.nat 23)), opts [(py!"key1", some py!"value1"), (py!"key2", some py!"value2"), (py!"key3", some py!"value3")], .exc .keyError] := by decide +kernel

/-- test_ConfigParserEnhanced.py:1061 test_ConfigParserEnhanced_property_configparserenhanceddata_has_option -/
example : seen baseClass [py!"main.ini"] [.ed (.hasOption py!"SECTION-A" py!"key1"), .ed (.hasOption py!"SECTION-A" py!"Nonexistent Key")] =
    [.ok (.ed (.bool true)), .ok (.ed (.bool false))] := by decide +kernel

/-- test_ConfigParserEnhanced.py:1084 test_ConfigParserEnhanced_property_configparserenhanceddata_get -/
example : seen baseClass [py!"main.ini"] [.ed (.getOption py!"SECTION-A" py!"key1"), .ed (.getOption py!"SECTION-A" py!"nonexistentkey"), .ed (.getOption py!"Nonexistent Section" py!"key1")] =
    [.ok (.ed (.str (some py!"value1"))), .exc .keyError, .exc .keyError] := by decide +kernel

/-- test_ConfigParserEnhanced.py:1119 test_ConfigParserEnhanced_property_configparserenhanceddata_deptest -/
example : seen baseClass [py!"main.ini"] [.ed (.getOption py!"DEP-TEST-A" py!"key1"), .ed (.getOption py!"DEP-TEST-A" py!"key2"), .ed (.getOption py!"DEP-TEST-B" py!"key1"), .ed (.getOption py!"DEP-TEST-B" py!"key2"), .ed (.getOption py!"DEP-TEST-A" py!"key1"), .ed (.getOption py!"DEP-TEST-A" py!"key2")] =
    [.ok (.ed (.str (some py!"value1-A"))), .ok (.ed (.str (some py!"value2-A"))), .ok (.ed (.str (some py!"value1-B"))), .ok (.ed (.str (some py!"value2-A"))), .ok (.ed (.str (some py!"value1-A"))), .ok (.ed (.str (some py!"value2-A")))] := by decide +kernel

/-- test_ConfigParserEnhanced.py:1162 test_ConfigParserEnhanced_configparser_IdenticalKeyError -/
example : seen baseClass [py!"badkeys.ini"] [.ed (.parseSection py!"SECTION-A" true true), .ed (.parseSection py!"SECTION-B" true true)] =
    [.exc .duplicateOption, .exc .duplicateOption] := by decide +kernel

/-- test_ConfigParserEnhanced.py:1185 test_ConfigParserEnhanced_ini_NoValue -/
example : seen baseClass [py!"main.ini"] [.ed (.getItem py!"NOVALUE_TEST")] =
    [opts [(py!"key1", some py!""), (py!"key2", none), (py!"key3", some py!"value3")]] := by decide +kernel

/-- test_ConfigParserEnhanced.py:1225 test_ConfigParserEnhanced_test_key_variants -/
example : seen baseClass [py!"main.ini"] [.ed (.getItem py!"KEY_VARIANT_TEST")] =
    [opts [(py!"key1", some py!"value1"), (py!"key two", some py!"value two"), (py!"key 'three A'", some py!"value string"), (py!"key four", some py!""), (py!"key five", none)]] := by decide +kernel

/-- test_ConfigParserEnhanced.py:1262 test_ConfigParserEnhanced_handler_use_issue010 -/
example : seen baseClass [py!"main.ini"] [.ed (.parseSection py!"TEST_SECTION-0.2.0" true true), .ed (.getItem py!"TEST_SECTION-0.2.0")] =
    [.ok (.ed (.shared ())), opts [(py!"key-0.1.0", some py!"value-0.1.0"), (py!"key-0.2.0", some py!"value-0.2.0")]] := by decide +kernel

/-- test_ConfigParserEnhanced.py:1318 test_ConfigParserEnhanced_unroll_to_str -/
example : seen baseClass [py!"main.ini"] [.unroll (some py!"SECTION-A") false false] =
    [.ok (.text py!"[SECTION-A]\nkey1:value1\nkey2:value2\nkey3:value3\n")] := by decide +kernel

/-- test_ConfigParserEnhanced.py:1355 test_ConfigParserEnhanced_DEFAULT_parsed -/
example : seen baseClass [py!"default.ini"] [.ed (.parseSection py!"SECTION-A+" true true), .ed (.get py!"SECTION-A+"), .ed (.get py!"SECTION-A")] =
    [.ok (.ed (.shared ())), opts [(py!"Key D1", some py!"value A+D1"), (py!"key A1", some py!"value A1"), (py!"key A2", some py!"value A2"), (py!"key A3", some py!"value A+3"), (py!"key A+4", some py!"value A+4")], opts [(py!"Key D1", some py!"value D1"), (py!"key A1", some py!"value A1"), (py!"key A2", some py!"value A2"), (py!"key A3", some py!"value A3")]] := by decide +kernel

/-- test_ConfigParserEnhanced.py:1412 test_ConfigParserEnhanced_EMPTY_SECTION -/
example : seen baseClass [py!"main.ini"] [.ed (.get py!"EMPTY_SECTION")] =
    [opts []] := by decide +kernel

/-- test_ConfigParserEnhanced.py:1438 test_ConfigParserEnhanced_VALIDATOR_01: an `assert_section…` that returns 0 is `str none` in the model -/
example : seen baseClass [py!"validation_01.ini"] [.level 5, .ed (.assertSection py!"SECTION B" true), .ed (.assertFile)] =
    [.ok .unit, .ok (.ed (.str none)), .ok (.ed (.nat 0))] := by decide +kernel

/-- test_ConfigParserEnhanced.py:1468 test_ConfigParserEnhanced_VALIDATOR_02: an `assert_section…` that returns 0 is `str none` in the model -/
example : seen baseClass [py!"validation_02.ini"] [.level 5, .ed (.assertSection py!"SECTION B" true), .ed (.assertSection py!"SECTION C" true), .ed (.assertFile)] =
    [.ok .unit, .ok (.ed (.str none)), .exc .valueError, .exc .valueError] := by decide +kernel

/-- test_ConfigParserEnhanced.py:1508 test_ConfigParserEnhanced_VALIDATOR_03: an `assert_section…` that returns 0 is `str none` in the model -/
example : seen baseClass [py!"validation_03a.ini", py!"validation_03b.ini"] [.level 5, .ed (.assertSection py!"SECTION B" true), .ed (.assertSection py!"SECTION C" true), .ed (.assertFile)] =
    [.ok .unit, .ok (.ed (.str none)), .exc .valueError, .exc .valueError] := by decide +kernel

/-- test_ConfigParserEnhanced.py:1660 test_ConfigParserDataEnhanced_property_configparser_delimiters -/
example : seen baseClass [py!"main.ini"] [.delims none] =
    [.exc .typeError] := by decide +kernel

/-- test_ConfigParserEnhanced.py:1783 test_ConfigParserDataEnhanced_ini_section_has_empty_section -/
example : seen baseClass [py!"main.ini"] [.ed (.getItem py!"SEC_EMPTY")] =
    [opts []] := by decide +kernel

/-- test_ConfigParserEnhanced.py:1808 test_ConfigParserDataEnhanced_ini_section_has_no_generic_entries -/
example : seen baseClass [py!"main.ini"] [.ed (.getItem py!"SEC_ALL_HANDLED")] =
    [opts []] := by decide +kernel

/-- test_ConfigParserEnhanced.py:1833 test_ConfigParserDataEnhanced_method_get_01 -/
example : seen baseClass [py!"main.ini"] [.ed (.get py!"SECTION-A"), .ed (.getOption py!"SECTION-A" py!"key2"), .ed (.getOption py!"SECTION-A" py!"key400")] =
    [opts [(py!"key1", some py!"value1"), (py!"key2", some py!"value2"), (py!"key3", some py!"value3")], .ok (.ed (.str (some py!"value2"))), .exc .keyError] := by decide +kernel

/-- test_ConfigParserEnhanced.py:1872 test_ConfigParserDataEnhanced_method_getitem_01 -/
example : seen baseClass [py!"main.ini"] [.ed (.getItem py!"SECTION-A")] =
    [opts [(py!"key1", some py!"value1"), (py!"key2", some py!"value2"), (py!"key3", some py!"value3")]] := by decide +kernel

/-- test_ConfigParserEnhanced.py:1896 test_ConfigParserDataEnhanced_method_getitem_02 -/
example : seen baseClass [py!"main.ini"] [.ed (.getItem py!"SECTION-A+")] =
    [opts [(py!"key1", some py!"value1"), (py!"key2", some py!"value2"), (py!"key3", some py!"value3"), (py!"key4", some py!"value4")]] := by decide +kernel

/-- test_ConfigParserEnhanced.py:1920 test_ConfigParserDataEnhanced_method_getitem_03 -/
example : seen baseClass [py!"main.ini"] [.ed (.getItem py!"KEY_VARIANT_TEST")] =
    [opts [(py!"key1", some py!"value1"), (py!"key two", some py!"value two"), (py!"key 'three A'", some py!"value string"), (py!"key four", some py!""), (py!"key five", none)]] := by decide +kernel

/-- test_ConfigParserEnhanced.py:1950 test_ConfigParserDataEnhanced_method_getitem_04 -/
example : seen baseClass [py!"main.ini"] [.ed (.getItem py!"CONFIGPARSERENHANCED_COMMON")] =
    [.exc .keyError] := by decide +kernel

/-- test_ConfigParserEnhanced.py:1974 test_ConfigParserDataEnhanced_len_01 -/
example : seen baseClass [py!"main.ini"] [.ed (.parseSection py!"SECTION-A" true true), .ed (.len), .ed (.parseSection py!"SECTION-A+" true true), .ed (.len), .ed (.parseSection py!"SECTION-B+" true true), .ed (.len), .ed (.parseSection py!"SEC_EMPTY" true true), .ed (.len), .ed (.parseSection py!"SEC_ALL_HANDLED" true true), .ed (.len)] =
    [.ok (.ed (.shared ())), .ok (.ed (.nat 23)), .ok (.ed (.shared ())), .ok (.ed (.nat 23)), .ok (.ed (.shared ())), .ok (.ed (.nat 23)), .ok (.ed (.shared ())), .ok (.ed (.nat 23)), .ok (.ed (.shared ())), .ok (.ed (.nat 23))] := by decide +kernel

/-- test_ConfigParserEnhanced.py:2059 test_ConfigParserDataEnhanced_keys -/
example : seen baseClass [py!"main.ini"] [.ed (.keys)] =
    [.ok (.ed (.names [py!"SECTION-A", py!"SECTION-B", py!"SECTION C", py!"SECTION-A+", py!"SECTION-B+", py!"SECTION C+", py!"OPERAND_TEST", py!"BAD_CHAR_IN_OP", py!"CYCLE_TEST_A", py!"CYCLE_TEST_B", py!"CYCLE_TEST_C", py!"ENVVAR-PREPEND-TEST", py!"HANDLER_FAIL_TEST", py!"DEP-TEST-A", py!"DEP-TEST-B", py!"AMBIGUOUS_HANDLER_TEST", py!"NOVALUE_TEST", py!"KEY_VARIANT_TEST", py!"SEC_EMPTY", py!"SEC_ALL_HANDLED", py!"TEST_SECTION-0.1.0", py!"TEST_SECTION-0.2.0", py!"EMPTY_SECTION"]))] := by decide +kernel

/-- test_ConfigParserEnhanced.py:2111 test_ConfigParserDataEnhanced_sections -/
example : seen baseClass [py!"main.ini"] [.ed (.sections .no)] =
    [.ok (.ed (.names [py!"SECTION-A", py!"SECTION-B", py!"SECTION C", py!"SECTION-A+", py!"SECTION-B+", py!"SECTION C+", py!"OPERAND_TEST", py!"BAD_CHAR_IN_OP", py!"CYCLE_TEST_A", py!"CYCLE_TEST_B", py!"CYCLE_TEST_C", py!"ENVVAR-PREPEND-TEST", py!"HANDLER_FAIL_TEST", py!"DEP-TEST-A", py!"DEP-TEST-B", py!"AMBIGUOUS_HANDLER_TEST", py!"NOVALUE_TEST", py!"KEY_VARIANT_TEST", py!"SEC_EMPTY", py!"SEC_ALL_HANDLED", py!"TEST_SECTION-0.1.0", py!"TEST_SECTION-0.2.0", py!"EMPTY_SECTION"]))] := by decide +kernel

/-- test_ConfigParserEnhanced.py:2248 test_ConfigParserDataEnhanced_has_section -/
example : seen baseClass [py!"main.ini"] [.ed (.hasSection py!"SECTION-A"), .ed (.hasSection py!"JELLY DOUGHNUT")] =
    [.ok (.ed (.bool true)), .ok (.ed (.bool false))] := by decide +kernel

/-- test_ConfigParserEnhanced.py:2280 test_ConfigParserDataEnhanced_has_option -/
example : seen baseClass [py!"main.ini"] [.ed (.hasOption py!"SECTION-A" py!"key1"), .ed (.hasOption py!"SECTION-A" py!"key4"), .ed (.hasOption py!"SECTION-A" py!"definitely does not exist")] =
    [.ok (.ed (.bool true)), .ok (.ed (.bool false)), .ok (.ed (.bool false))] := by decide +kernel

/-- test_ConfigParserEnhanced.py:2344 test_ConfigParserDataEnhanced_has_section_no_parse -/
example : seen baseClass [py!"main.ini"] [.ed (.hasSectionNoParse py!"SECTION-A"), .ed (.getItem py!"SECTION-A"), .ed (.hasSectionNoParse py!"SECTION-A")] =
    [.ok (.ed (.bool false)), opts [(py!"key1", some py!"value1"), (py!"key2", some py!"value2"), (py!"key3", some py!"value3")], .ok (.ed (.bool true))] := by decide +kernel

/-- test_ConfigParserEnhanced.py:2164 test_ConfigParserDataEnhanced_sections_arg_parse -/
example : seen baseClass [py!"main.ini"] [.ed (.sections .otherType), .ed (.sections .otherStr)] =
    [.exc .typeError, .exc .valueError] := by decide +kernel

/-- A handler that returns a fixed value. -/
def returning (i : Int) (decorated : Bool := true) : Handler Unit Unit :=
  { decorated := decorated, run := fun _ d o => (.ok (.int i), d, o) }

/-- A subclass with a method `_handler_<op>`. -/
def withPriv (op : Str) (i : Int) : Env Unit Unit :=
  { logging with priv := fun o => if o = op then some (.user (returning i)) else logging.priv o }

/-- A subclass with a method `handler_<op>`. -/
def withPub (op : Str) (i : Int) (decorated : Bool := true) : Env Unit Unit :=
  { logging with pub := fun o => if o = op then some (returning i decorated) else logging.pub o }

/-- test_ConfigParserEnhanced.py:567 test_ConfigParserEnhanced_parse_section_handler_fail_01 -/
example : seen (withPriv py!"test_handler_fail" 1) [py!"main.ini"] [.level 5, .ed (.parseSection py!"HANDLER_FAIL_TEST" true true)] =
    [.ok .unit, .exc .runtimeError] := by decide +kernel

/-- test_ConfigParserEnhanced.py:768 test_ConfigParserEnhanced_parse_section_handler_fail_5 -/
example : seen (withPub py!"test_handler_fail" 5) [py!"main.ini"] [.level 5, .ed (.parseSection py!"HANDLER_FAIL_TEST" true true)] =
    [.ok .unit, .exc .runtimeError] := by decide +kernel

/-- test_ConfigParserEnhanced.py:732 test_ConfigParserEnhanced_parser_handler_rval_reserved_warning -/
example : seen (withPub py!"test_handler_fail" 5) [py!"main.ini"] [.level 4, .ed (.parseSection py!"HANDLER_FAIL_TEST" true true)] =
    [.ok .unit, .ok (.ed (.shared ()))] := by decide +kernel

/-- test_ConfigParserEnhanced.py:803 test_ConfigParserEnhanced_parse_section_handler_fail_11 -/
example : seen (withPriv py!"test_handler_fail" 11) [py!"main.ini"] [.level 5, .ed (.parseSection py!"HANDLER_FAIL_TEST" true true)] =
    [.ok .unit, .exc .runtimeError] := by decide +kernel

/-- test_ConfigParserEnhanced.py:635 test_ConfigParserEnhanced_parser_handler_private -/
example : seen (withPriv py!"operation" 0) [py!"main.ini"] [.ed (.parseSection py!"AMBIGUOUS_HANDLER_TEST" true true)] =
    [.ok (.ed (.shared ()))] := by decide +kernel

/-- test_ConfigParserEnhanced.py:665 test_ConfigParserEnhanced_parser_handler_public -/
example : seen (withPub py!"operation" 0 false) [py!"main.ini"] [.ed (.parseSection py!"AMBIGUOUS_HANDLER_TEST" true true)] =
    [.ok (.ed (.shared ()))] := by decide +kernel

/-- test_ConfigParserEnhanced.py:694 test_ConfigParserEnhanced_parser_handler_ambiguous -/
example : seen { withPub py!"operation" 0 with priv := (withPriv py!"operation" 0).priv } [py!"main.ini"] [.ed (.parseSection py!"AMBIGUOUS_HANDLER_TEST" true true)] =
    [.exc .ambiguousHandler] := by decide +kernel

/-- `parser._loginfo` after `sections(parse=...)`. -/
def logAfter (a : SectionsArg) : List LogEntry := (session logging [py!"main.ini"] [.ed (.sections a)]).2.obj.log

/-- test_ConfigParserEnhanced.py:2164 test_ConfigParserDataEnhanced_sections_arg_parse -/
example : (entered (logAfter .yes)).reverse =
    left (logAfter .yes) := by decide +kernel

/-- test_ConfigParserEnhanced.py:2164 test_ConfigParserDataEnhanced_sections_arg_parse -/
example : (entered (logAfter .yes)).isEmpty =
    false := by decide +kernel

/-- test_ConfigParserEnhanced.py:2164 test_ConfigParserDataEnhanced_sections_arg_parse -/
example : entered (session logging [py!"main.ini"] [.ed (.sections .yes), .ed (.sections .force)]).2.obj.log =
    (left (logAfter .yes)).reverse := by decide +kernel

end CPE.Conformance

