import Verif.Conformance.Files
/-
Conformance with the tests of gen_config.py: wip/genconfig/tests/test_unit_gen_config.py and test_integration_gen_config.py
(see Verif/Conformance/Files).
-/
namespace CPE.Conformance.Tools
open CPE.KW CPE.Cli CPE.SetEnv

/-- The files of the tests, read; `configs` is the text of config-specs.ini. -/
def gcTool (configs : Str) : Tool where
  systems := read gcSystems
  envs := read gcEnvs
  flags := read gcFlags
  specs := read configs
  host := (place [] 0).host
  fuel := 100

/-- The words of the tests before the others. -/
def gcWords : List Str := [py!"--config-specs", py!"test-config-specs.ini", py!"--supported-config-flags", py!"test-supported-config-flags.ini",
  py!"--supported-systems", py!"test-supported-systems.ini", py!"--supported-envs", py!"test-supported-envs.ini",
  py!"--environment-specs", py!"test-environment-specs.ini"]

/-- test-config-specs.ini with the names of its supporting sections in upper case. The validation takes a section for a
supporting one only if its name is in upper case (gen_config.py:192), which those of the file of the repository (in which names
of machines have been replaced) are not: with that file the programs of the following tests end with the message that there
is no environment in the build name `machine-type-5`. -/
def gcConfigsUpper : Str :=
  py!"[MACHINE-TYPE-5]\nopt-set-cmake-var MPI_EXEC_NUMPROCS_FLAG STRING : -p\n\n[MACHINE-TYPE-5-EMPIRE]\nopt-set-cmake-var Trilinos_ENABLE_Panzer BOOL : ON\n\n[machine-type-5_intel-19.0.4-mpich-7.7.15-hsw-openmp_mpi_serial_none]\nuse MACHINE-TYPE-5\n\n[machine-type-5_intel-19.0.4-mpich-7.7.15-hsw-openmp_mpi_serial_sparc]\nuse MACHINE-TYPE-5\nopt-set-cmake-var TPL_ENABLE_MPI BOOL : ON\n\n[machine-type-5_intel-19.0.4-mpich-7.7.15-hsw-openmp_no-mpi_serial_sparc]\nuse MACHINE-TYPE-5\n\n[machine-type-5_intel-19.0.4-mpich-7.7.15-hsw-openmp_mpi_serial_empire_sparc]\nuse MACHINE-TYPE-5\nopt-set-cmake-var TPL_ENABLE_MPI BOOL : ON\nuse MACHINE-TYPE-5-EMPIRE\n\n[MACHINE-TYPE-4]\nopt-set-cmake-var MPI_EXEC_NUMPROCS_FLAG STRING : -p\n\n[machine-type-4_intel-19.0.4-mpich-7.7.15-hsw-openmp_no-mpi_serial_sparc]\nuse MACHINE-TYPE-4\n\n[machine-type-4_intel-19.0.4-mpich-7.7.15-hsw-openmp_mpi_serial_empire_sparc]\nuse MACHINE-TYPE-4\nopt-set-cmake-var TPL_ENABLE_MPI BOOL : ON\n"

/-- gen_config.py:191-214: the file of the repository does not pass the validation. -/
example : (GC.validate (gcTool gcConfigs) (GC.new py!"machine-type-5_intel-hsw" true)).1 = .exc .systemExit := by decide +kernel

/-- What GenConfig is run with in these tests. -/
def gcSite (build : Str) (fragment : Option Str) (yes : Bool) : GenSite where
  tool := gcTool gcConfigsUpper
  gen := options emptyCfg
  args := {
    build := build, force := true, ciMode := false, listConfigs := false, listFlags := false, fragment := fragment, yes := yes,
    saveArgs := none, systemsFile := py!"test-supported-systems.ini", envsFile := py!"test-supported-envs.ini",
    specsFile := py!"test-environment-specs.ini", flagsFile := py!"test-supported-config-flags.ini", configsFile := py!"test-config-specs.ini" }

/-- `main` with these arguments; `files` are the files that it may write. -/
def main (build : Str) (fragment : Option Str) (yes : Bool) (files : Dict Str Str) (input : List Str) : Out Unit × Dict Str Str :=
  let r := Job.main (gcSite build fragment yes) py!"/tmp/me/bash_cmake_args" py!"/tmp/me/.bash_cmake_args_loc"
    (Job.new (gcSite build fragment yes).args files input)
  (r.1, r.2.files)

/-- gen_config.py on the files of the tests and others. -/
def gen (words : List Str) (more : Dict Str Str) (input : List Str) : Out Unit × Dict Str Str :=
  gcProgram (place [] 0) words (gcDisk ++ more) input

/-- test_unit_gen_config.py:14 test_list_config_flags -/
example : (gen [py!"--supported-config-flags", py!"test-supported-config-flags.ini", py!"--list-config-flags"] [] []).1 = .exc .systemExit ∧
    (match CKP.new (cls (read gcFlags)) 100 [] with
      | .ok k => match (CKP.flagsMsg (cls (read gcFlags)) 100 py!"test-supported-config-flags.ini" py!"Please select one of the following." py!"INFO" k).1 with
        | .ok t => [py!"Supported Flags Are:", py!"use-mpi", py!"mpi (default)", py!"no-mpi", py!"node-type", py!"serial (default)", py!"openmp"].all fun l => occurs l t
        | _ => false
      | _ => false) = true := by decide +kernel

/-- test_unit_gen_config.py:117 test_argument_parser_functions_correctly -/
example : (match (genArgs 100 ((place [] 0).disk gcDisk) py!"gen-config.ini" id (fun _ => false) [py!"--supported-config-flags", py!"non_default/supported-config-flags.ini", py!"build_name"] GCTop.new).1 with
      | .ok A => decide (A.build = py!"build_name" ∧ [A.flagsFile, A.configsFile, A.systemsFile, A.envsFile, A.specsFile] = [py!"non_default/supported-config-flags.ini", py!"test-config-specs.ini", py!"test-supported-systems.ini", py!"test-supported-envs.ini", py!"test-environment-specs.ini"])
      | _ => false) = true := by decide +kernel

/-- test_unit_gen_config.py:117 test_argument_parser_functions_correctly -/
example : (match (genArgs 100 ((place [] 0).disk gcDisk) py!"gen-config.ini" id (fun _ => false) [py!"--config-specs", py!"non_default/config-specs.ini", py!"build_name"] GCTop.new).1 with
      | .ok A => decide (A.build = py!"build_name" ∧ [A.flagsFile, A.configsFile, A.systemsFile, A.envsFile, A.specsFile] = [py!"test-supported-config-flags.ini", py!"non_default/config-specs.ini", py!"test-supported-systems.ini", py!"test-supported-envs.ini", py!"test-environment-specs.ini"])
      | _ => false) = true := by decide +kernel

/-- test_unit_gen_config.py:117 test_argument_parser_functions_correctly -/
example : (match (genArgs 100 ((place [] 0).disk gcDisk) py!"gen-config.ini" id (fun _ => false) [py!"--supported-systems", py!"non_default/supported-systems.ini", py!"build_name"] GCTop.new).1 with
      | .ok A => decide (A.build = py!"build_name" ∧ [A.flagsFile, A.configsFile, A.systemsFile, A.envsFile, A.specsFile] = [py!"test-supported-config-flags.ini", py!"test-config-specs.ini", py!"non_default/supported-systems.ini", py!"test-supported-envs.ini", py!"test-environment-specs.ini"])
      | _ => false) = true := by decide +kernel

/-- test_unit_gen_config.py:117 test_argument_parser_functions_correctly -/
example : (match (genArgs 100 ((place [] 0).disk gcDisk) py!"gen-config.ini" id (fun _ => false) [py!"--supported-envs", py!"non_default/supported-envs.ini", py!"build_name"] GCTop.new).1 with
      | .ok A => decide (A.build = py!"build_name" ∧ [A.flagsFile, A.configsFile, A.systemsFile, A.envsFile, A.specsFile] = [py!"test-supported-config-flags.ini", py!"test-config-specs.ini", py!"test-supported-systems.ini", py!"non_default/supported-envs.ini", py!"test-environment-specs.ini"])
      | _ => false) = true := by decide +kernel

/-- test_unit_gen_config.py:117 test_argument_parser_functions_correctly -/
example : (match (genArgs 100 ((place [] 0).disk gcDisk) py!"gen-config.ini" id (fun _ => false) [py!"--environment-specs", py!"non_default/environment-specs.ini", py!"build_name"] GCTop.new).1 with
      | .ok A => decide (A.build = py!"build_name" ∧ [A.flagsFile, A.configsFile, A.systemsFile, A.envsFile, A.specsFile] = [py!"test-supported-config-flags.ini", py!"test-config-specs.ini", py!"test-supported-systems.ini", py!"test-supported-envs.ini", py!"non_default/environment-specs.ini"])
      | _ => false) = true := by decide +kernel

/-- test_unit_gen_config.py:147 test_gen_config_ini_file_used_if_nothing_else_explicitly_specified -/
example : (match (genArgs 100 ((place [] 0).disk gcDisk) py!"gen-config.ini" id (fun _ => false) [py!"build_name"] GCTop.new).1 with
      | .ok A => decide (A.build = py!"build_name" ∧ [A.flagsFile, A.configsFile, A.systemsFile, A.envsFile, A.specsFile] = [py!"test-supported-config-flags.ini", py!"test-config-specs.ini", py!"test-supported-systems.ini", py!"test-supported-envs.ini", py!"test-environment-specs.ini"])
      | _ => false) = true := by decide +kernel

/-- test_unit_gen_config.py:229 test_invalid_gen_config_file_raises -/
example : (GCTop.configData 100 ((place [] 0).disk ((py!"bad_gen_config.ini", py!"[invalid_section_name]\nsupported-config-flags : test-supported-config-flags.ini\nconfig-specs : test-config-specs.ini\n\n[load-env]\nsupported-systems : test-supported-systems.ini\nsupported-envs : test-supported-envs.ini\nenvironment-specs : test-environment-specs.ini\n") :: gcDisk)) py!"bad_gen_config.ini" GCTop.new).1 = .exc .valueError := by decide +kernel

/-- test_unit_gen_config.py:229 test_invalid_gen_config_file_raises -/
example : (GCTop.configData 100 ((place [] 0).disk ((py!"bad_gen_config.ini", py!"[gen-config]\nsupported-config-flags : test-supported-config-flags.ini\nconfig-specs : test-config-specs.ini\n\n[invalid_section_name]\nsupported-systems : test-supported-systems.ini\nsupported-envs : test-supported-envs.ini\nenvironment-specs : test-environment-specs.ini\n") :: gcDisk)) py!"bad_gen_config.ini" GCTop.new).1 = .exc .valueError := by decide +kernel

/-- test_unit_gen_config.py:229 test_invalid_gen_config_file_raises -/
example : (GCTop.configData 100 ((place [] 0).disk ((py!"bad_gen_config.ini", py!"[gen-config]\nbad-key : test-supported-config-flags.ini\nconfig-specs : test-config-specs.ini\n\n[load-env]\nsupported-systems : test-supported-systems.ini\nsupported-envs : test-supported-envs.ini\nenvironment-specs : test-environment-specs.ini\n") :: gcDisk)) py!"bad_gen_config.ini" GCTop.new).1 = .exc .valueError := by decide +kernel

/-- test_unit_gen_config.py:229 test_invalid_gen_config_file_raises -/
example : (GCTop.configData 100 ((place [] 0).disk ((py!"bad_gen_config.ini", py!"[gen-config]\nsupported-config-flags : test-supported-config-flags.ini\nconfig-specs : test-config-specs.ini\n\n[load-env]\nbad-key : test-supported-systems.ini\nsupported-envs : test-supported-envs.ini\nenvironment-specs : test-environment-specs.ini\n") :: gcDisk)) py!"bad_gen_config.ini" GCTop.new).1 = .exc .valueError := by decide +kernel

/-- test_unit_gen_config.py:229 test_invalid_gen_config_file_raises -/
example : (GCTop.configData 100 ((place [] 0).disk ((py!"bad_gen_config.ini", py!"[gen-config]\nsupported-config-flags : \nconfig-specs : test-config-specs.ini\n\n[load-env]\nsupported-systems : test-supported-systems.ini\nsupported-envs : test-supported-envs.ini\nenvironment-specs : test-environment-specs.ini\n") :: gcDisk)) py!"bad_gen_config.ini" GCTop.new).1 = .exc .valueError := by decide +kernel

/-- test_unit_gen_config.py:229 test_invalid_gen_config_file_raises -/
example : (GCTop.configData 100 ((place [] 0).disk ((py!"bad_gen_config.ini", py!"[gen-config]\nsupported-config-flags : test-supported-config-flags.ini\nconfig-specs : test-config-specs.ini\n\n[load-env]\nsupported-systems : \nsupported-envs : test-supported-envs.ini\nenvironment-specs : test-environment-specs.ini\n") :: gcDisk)) py!"bad_gen_config.ini" GCTop.new).1 = .exc .valueError := by decide +kernel

/-- test_unit_gen_config.py:249 test_config_file_specified_in_gen_config_ini_does_not_exist_raises -/
example : (GCTop.configData 100 ((place [] 0).disk ((py!"bad_gen_config.ini", py!"[gen-config]\nsupported-config-flags : non-existent-file.ini\nconfig-specs : test_config_specs.ini\n\n[load-env]\nsupported-systems : test-supported-systems.ini\nsupported-envs : test_supported_envs.ini\nenvironment-specs : test_environment_specs.ini\n") :: gcDisk)) py!"bad_gen_config.ini" GCTop.new).1 = .exc .valueError := by decide +kernel

/-- test_unit_gen_config.py: the gen-config.ini of these tests is accepted -/
example : (GCTop.configData 100 ((place [] 0).disk gcDisk) py!"gen-config.ini" GCTop.new).1 = .ok () := by decide +kernel

/-- test_integration_gen_config.py:22 test_list_configs_shows_correct_sections -/
example : (gen (gcWords ++ [py!"--list-configs", py!"--force", py!"machine-type-5"]) [] []).1 = .exc .systemExit ∧
    (GC.listConfigs (gcTool gcConfigs) (GC.new py!"machine-type-5" true)).1 =
      .ok [py!"machine-type-5", py!"machine-type-5-EMPIRE", py!"machine-type-5_intel-19.0.4-mpich-7.7.15-hsw-openmp_mpi_serial_none", py!"machine-type-5_intel-19.0.4-mpich-7.7.15-hsw-openmp_mpi_serial_sparc", py!"machine-type-5_intel-19.0.4-mpich-7.7.15-hsw-openmp_no-mpi_serial_sparc", py!"machine-type-5_intel-19.0.4-mpich-7.7.15-hsw-openmp_mpi_serial_empire_sparc"] := by decide +kernel

/-- test_integration_gen_config.py:22 test_list_configs_shows_correct_sections -/
example : (gen (gcWords ++ [py!"--list-configs", py!"--force", py!"machine-type-4"]) [] []).1 = .exc .systemExit ∧
    (GC.listConfigs (gcTool gcConfigs) (GC.new py!"machine-type-4" true)).1 =
      .ok [py!"machine-type-4", py!"machine-type-4_intel-19.0.4-mpich-7.7.15-hsw-openmp_no-mpi_serial_sparc", py!"machine-type-4_intel-19.0.4-mpich-7.7.15-hsw-openmp_mpi_serial_empire_sparc"] := by decide +kernel

/-- test_integration_gen_config.py:48 test_complete_config_generated_correctly -/
example : (GC.completeConfig (gcTool gcConfigs) (GC.new py!"machine-type-5_intel-hsw" true)).1 =
    .ok py!"machine-type-5_intel-19.0.4-mpich-7.7.15-hsw-openmp_mpi_serial_none" := by decide +kernel

/-- test_integration_gen_config.py:79 test_bash_cmake_flags_generated_correctly -/
example : (fun r : Out Unit × Dict Str Str => (r.1, Dict.get? r.2 py!"/tmp/me/.bash_cmake_args_loc", Dict.get? r.2 py!"/tmp/me/bash_cmake_args"))
      (main py!"machine-type-5_intel-hsw" none false [] []) =
    (.ok (), some py!"/tmp/me/bash_cmake_args", some py!"-DMPI_EXEC_NUMPROCS_FLAG:STRING=-p") := by decide +kernel

/-- test_integration_gen_config.py:79 test_bash_cmake_flags_generated_correctly -/
example : (fun r : Out Unit × Dict Str Str => (r.1, Dict.get? r.2 py!"/tmp/me/.bash_cmake_args_loc", Dict.get? r.2 py!"/tmp/me/bash_cmake_args"))
      (main py!"machine-type-5_intel-hsw_sparc" none false [] []) =
    (.ok (), some py!"/tmp/me/bash_cmake_args", some py!"-DMPI_EXEC_NUMPROCS_FLAG:STRING=-p \\\n    -DTPL_ENABLE_MPI:BOOL=ON") := by decide +kernel

/-- test_integration_gen_config.py:79 test_bash_cmake_flags_generated_correctly -/
example : (fun r : Out Unit × Dict Str Str => (r.1, Dict.get? r.2 py!"/tmp/me/.bash_cmake_args_loc", Dict.get? r.2 py!"/tmp/me/bash_cmake_args"))
      (main py!"machine-type-5_intel-hsw_empire_sparc" none false [] []) =
    (.ok (), some py!"/tmp/me/bash_cmake_args", some py!"-DMPI_EXEC_NUMPROCS_FLAG:STRING=-p \\\n    -DTPL_ENABLE_MPI:BOOL=ON \\\n    -DTrilinos_ENABLE_Panzer:BOOL=ON") := by decide +kernel

/-- test_integration_gen_config.py:125 test_cmake_fragment_file_stored_correctly -/
example : (fun r : Out Unit × Dict Str Str => (r.1, Dict.get? r.2 py!"test_fragment.cmake"))
      (main py!"machine-type-5_intel-hsw" (some py!"test_fragment.cmake") false [] []) =
    (.ok (), some py!"set(MPI_EXEC_NUMPROCS_FLAG -p CACHE STRING \"from .ini configuration\")") := by decide +kernel

/-- test_integration_gen_config.py:125 test_cmake_fragment_file_stored_correctly -/
example : (fun r : Out Unit × Dict Str Str => (r.1, Dict.get? r.2 py!"test_fragment.cmake"))
      (main py!"machine-type-5_intel-hsw_sparc" (some py!"test_fragment.cmake") false [] []) =
    (.ok (), some py!"set(MPI_EXEC_NUMPROCS_FLAG -p CACHE STRING \"from .ini configuration\")\nset(TPL_ENABLE_MPI ON CACHE BOOL \"from .ini configuration\")") := by decide +kernel

/-- test_integration_gen_config.py:125 test_cmake_fragment_file_stored_correctly -/
example : (fun r : Out Unit × Dict Str Str => (r.1, Dict.get? r.2 py!"test_fragment.cmake"))
      (main py!"machine-type-5_intel-hsw_empire_sparc" (some py!"test_fragment.cmake") false [] []) =
    (.ok (), some py!"set(MPI_EXEC_NUMPROCS_FLAG -p CACHE STRING \"from .ini configuration\")\nset(TPL_ENABLE_MPI ON CACHE BOOL \"from .ini configuration\")\nset(Trilinos_ENABLE_Panzer ON CACHE BOOL \"from .ini configuration\")") := by decide +kernel

/-- test_integration_gen_config.py:150 test_existing_cmake_fragment_file_asks_user_for_overwrite -/
example : (fun r : Out Unit × Dict Str Str => (r.1, Dict.get? r.2 py!"test_fragment.cmake"))
      (main py!"machine-type-5_intel-hsw" (some py!"test_fragment.cmake") false [(py!"test_fragment.cmake", [])] [py!"Y"]) =
    (.ok (), some py!"set(MPI_EXEC_NUMPROCS_FLAG -p CACHE STRING \"from .ini configuration\")") := by decide +kernel

/-- test_integration_gen_config.py:150 test_existing_cmake_fragment_file_asks_user_for_overwrite -/
example : (fun r : Out Unit × Dict Str Str => (r.1, Dict.get? r.2 py!"test_fragment.cmake"))
      (main py!"machine-type-5_intel-hsw" (some py!"test_fragment.cmake") false [(py!"test_fragment.cmake", [])] [py!"8", py!"y"]) =
    (.ok (), some py!"set(MPI_EXEC_NUMPROCS_FLAG -p CACHE STRING \"from .ini configuration\")") := by decide +kernel

/-- test_integration_gen_config.py:150 test_existing_cmake_fragment_file_asks_user_for_overwrite -/
example : (fun r : Out Unit × Dict Str Str => (r.1, Dict.get? r.2 py!"test_fragment.cmake"))
      (main py!"machine-type-5_intel-hsw" (some py!"test_fragment.cmake") true [(py!"test_fragment.cmake", [])] []) =
    (.ok (), some py!"set(MPI_EXEC_NUMPROCS_FLAG -p CACHE STRING \"from .ini configuration\")") := by decide +kernel

/-- test_integration_gen_config.py:150 test_existing_cmake_fragment_file_asks_user_for_overwrite -/
example : (fun r : Out Unit × Dict Str Str => (r.1, Dict.get? r.2 py!"test_fragment.cmake"))
      (main py!"machine-type-5_intel-hsw" (some py!"test_fragment.cmake") false [(py!"test_fragment.cmake", [])] [py!"N"]) =
    (.exc .systemExit, some py!"") := by decide +kernel

/-- test_integration_gen_config.py:150 test_existing_cmake_fragment_file_asks_user_for_overwrite -/
example : (fun r : Out Unit × Dict Str Str => (r.1, Dict.get? r.2 py!"test_fragment.cmake"))
      (main py!"machine-type-5_intel-hsw" (some py!"test_fragment.cmake") false [(py!"test_fragment.cmake", [])] [py!"8", py!"n"]) =
    (.exc .systemExit, some py!"") := by decide +kernel

/-- `validate_config_specs_ini()` with a config-specs.ini of sections that set one option. -/
def validate (sections : List Str) : Out Unit :=
  (GC.validate (gcTool (sections.flatMap fun s => py!"[" ++ s ++ py!"]\nopt-set-cmake-var CMAKE_BUILD_TYPE STRING : DEBUG\n\n")) (GC.new py!"machine-type-5_any_build_name" true)).1

/-- The sections that it complains about, and the names that it asks for. -/
def complaints (sections : List Str) : Out (List (Str × Str)) :=
  let T := gcTool (sections.flatMap fun s => py!"[" ++ s ++ py!"]\nopt-set-cmake-var CMAKE_BUILD_TYPE STRING : DEBUG\n\n")
  ((do
    GC.loadCkp T
    GC.loadLE
    GC.validateLoop T (edKeys (cls T.specs))) (GC.new py!"machine-type-5_any_build_name" true)).1

/-- test_integration_gen_config.py:262 test_section_without_options_specified_for_all_flags_raises -/
example : validate [py!"machine-type-5_intel-19.0.4-mpich-7.7.15-hsw-openmp_mpi_serial_sparc"] = .ok () ∧
    complaints [py!"machine-type-5_intel-19.0.4-mpich-7.7.15-hsw-openmp_mpi_serial_sparc"] = .ok [] := by decide +kernel

/-- test_integration_gen_config.py:262 test_section_without_options_specified_for_all_flags_raises -/
example : validate [py!"machine-type-5_intel-19.0.4-mpich-7.7.15-hsw-openmp_serial_sparc"] = .exc .valueError ∧
    complaints [py!"machine-type-5_intel-19.0.4-mpich-7.7.15-hsw-openmp_serial_sparc"] = .ok [(py!"machine-type-5_intel-19.0.4-mpich-7.7.15-hsw-openmp_serial_sparc", py!"machine-type-5_intel-19.0.4-mpich-7.7.15-hsw-openmp_mpi_serial_sparc")] := by decide +kernel

/-- test_integration_gen_config.py:262 test_section_without_options_specified_for_all_flags_raises -/
example : validate [py!"machine-type-5_intel-19.0.4-mpich-7.7.15-hsw-openmp_sparc"] = .exc .valueError ∧
    complaints [py!"machine-type-5_intel-19.0.4-mpich-7.7.15-hsw-openmp_sparc"] = .ok [(py!"machine-type-5_intel-19.0.4-mpich-7.7.15-hsw-openmp_sparc", py!"machine-type-5_intel-19.0.4-mpich-7.7.15-hsw-openmp_mpi_serial_sparc")] := by decide +kernel

/-- test_integration_gen_config.py:291 test_section_with_incorrect_flag_order_raises -/
example : validate [py!"machine-type-5_intel-19.0.4-mpich-7.7.15-hsw-openmp_serial_mpi_sparc"] = .exc .valueError ∧
    complaints [py!"machine-type-5_intel-19.0.4-mpich-7.7.15-hsw-openmp_serial_mpi_sparc"] = .ok [(py!"machine-type-5_intel-19.0.4-mpich-7.7.15-hsw-openmp_serial_mpi_sparc", py!"machine-type-5_intel-19.0.4-mpich-7.7.15-hsw-openmp_mpi_serial_sparc")] := by decide +kernel

/-- test_integration_gen_config.py:291 test_section_with_incorrect_flag_order_raises -/
example : validate [py!"machine-type-5_intel-19.0.4-mpich-7.7.15-hsw-openmp_sparc_serial_mpi"] = .exc .valueError ∧
    complaints [py!"machine-type-5_intel-19.0.4-mpich-7.7.15-hsw-openmp_sparc_serial_mpi"] = .ok [(py!"machine-type-5_intel-19.0.4-mpich-7.7.15-hsw-openmp_sparc_serial_mpi", py!"machine-type-5_intel-19.0.4-mpich-7.7.15-hsw-openmp_mpi_serial_sparc")] := by decide +kernel

/-- test_integration_gen_config.py:316 test_items_in_config_specs_sections_that_arent_options_raises -/
example : validate [py!"machine-type-5_intel-19.0.4-mpich-7.7.15-hsw-openmp_mpi_serial_sparc_not-an-option"] = .exc .valueError ∧
    complaints [py!"machine-type-5_intel-19.0.4-mpich-7.7.15-hsw-openmp_mpi_serial_sparc_not-an-option"] = .ok [(py!"machine-type-5_intel-19.0.4-mpich-7.7.15-hsw-openmp_mpi_serial_sparc_not-an-option", py!"machine-type-5_intel-19.0.4-mpich-7.7.15-hsw-openmp_mpi_serial_sparc")] := by decide +kernel

/-- test_integration_gen_config.py:336 test_multiple_invalid_config_specs_sections_are_shown_in_one_err_msg -/
example : validate [py!"machine-type-5_intel-19.0.4-mpich-7.7.15-hsw-openmp_serial_sparc", py!"machine-type-5_intel-19.0.4-mpich-7.7.15-hsw-openmp_mpi_sparc_serial", py!"machine-type-5_intel-19.0.4-mpich-7.7.15-hsw-openmp_mpi_serial_sparc_not-an-option"] = .exc .valueError ∧
    complaints [py!"machine-type-5_intel-19.0.4-mpich-7.7.15-hsw-openmp_serial_sparc", py!"machine-type-5_intel-19.0.4-mpich-7.7.15-hsw-openmp_mpi_sparc_serial", py!"machine-type-5_intel-19.0.4-mpich-7.7.15-hsw-openmp_mpi_serial_sparc_not-an-option"] = .ok [(py!"machine-type-5_intel-19.0.4-mpich-7.7.15-hsw-openmp_serial_sparc", py!"machine-type-5_intel-19.0.4-mpich-7.7.15-hsw-openmp_mpi_serial_sparc"), (py!"machine-type-5_intel-19.0.4-mpich-7.7.15-hsw-openmp_mpi_sparc_serial", py!"machine-type-5_intel-19.0.4-mpich-7.7.15-hsw-openmp_mpi_serial_sparc"), (py!"machine-type-5_intel-19.0.4-mpich-7.7.15-hsw-openmp_mpi_serial_sparc_not-an-option", py!"machine-type-5_intel-19.0.4-mpich-7.7.15-hsw-openmp_mpi_serial_sparc")] := by decide +kernel

end CPE.Conformance.Tools
