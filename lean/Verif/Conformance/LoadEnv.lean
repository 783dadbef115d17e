import Verif.Conformance.Files
/-
Conformance with the tests of load_env.py: wip/loadenv/loadenv/unittests/test_unit_load_env.py and test_integration_load_env.py
(see Verif/Conformance/Files).
-/
namespace CPE.Conformance.Tools
open CPE.KW CPE.Cli CPE.SetEnv

/-- The files of the tests, read. -/
def leTool (hostname : Str) : Tool where
  systems := read leSystems
  envs := read leEnvs
  flags := emptyCfg
  specs := emptyCfg
  host := (place hostname 0).host
  fuel := 100

/-- What LoadEnv gives. -/
def le {α : Type} (build : Str) (force : Bool) (m : M LE α) : Out α := (m (LE.new build force)).1

/-- The words of the tests before the others. -/
def leWords : List Str := [py!"--supported-systems", py!"test_supported_systems.ini", py!"--supported-envs", py!"test_supported_envs.ini",
  py!"--environment-specs", py!"test_environment_specs.ini"]

/-- test_unit_load_env.py:25 test_list_envs -/
example : (leProgram (place py!"machine-type-1_host" 0) [py!"--supported-systems", py!"test_supported_systems.ini", py!"--supported-envs", py!"test_supported_envs.ini", py!"--force", py!"--list-envs", py!"machine-type-1"] [] leDisk).outcome = .exc .systemExit ∧
    (match le py!"machine-type-1" true (LE.envsText (leTool py!"machine-type-1_host") py!"test_supported_envs.ini") with
      | .ok t => [py!"Supported Environments for 'machine-type-1':", py!"intel-19.0.4-mpich-7.7.15-hsw-openmp", py!"intel-hsw-openmp", py!"intel-19.0.4-mpich-7.7.15-knl-openmp", py!"default-env-knl"].all fun l => occurs l t
      | _ => false) = true := by decide +kernel

/-- test_unit_load_env.py:25 test_list_envs -/
example : (leProgram (place py!"machine-type-1_host" 0) [py!"--supported-systems", py!"test_supported_systems.ini", py!"--supported-envs", py!"test_supported_envs.ini", py!"--force", py!"--list-envs", py!"test-system"] [] leDisk).outcome = .exc .systemExit ∧
    (match le py!"test-system" true (LE.envsText (leTool py!"machine-type-1_host") py!"test_supported_envs.ini") with
      | .ok t => [py!"Supported Environments for 'test-system':", py!"env-name-aliases-empty-string", py!"env-name-aliases-none", py!"env-name-serial", py!"env-name"].all fun l => occurs l t
      | _ => false) = true := by decide +kernel

/-- test_unit_load_env.py:59 test_load_matching_env_location_flag_creates_load_matching_env_location_file, test_integration_load_env.py:268 test_main_with_successful_apply -/
example : (leProgram (place py!"machine-type-4_host" 0) (leWords ++ [py!"arm", py!"--output", py!"test_out.sh", py!"--load-matching-env-location", py!".load_matching_env_loc.test"]) [] leDisk).outcome = .ok () ∧
    Dict.get? (leProgram (place py!"machine-type-4_host" 0) (leWords ++ [py!"arm", py!"--output", py!"test_out.sh", py!"--load-matching-env-location", py!".load_matching_env_loc.test"]) [] leDisk).files py!".load_matching_env_loc.test" = some py!"/tmp/me/load_matching_env.sh" := by decide +kernel

/-- test_integration_load_env.py:288 test_main_with_unsuccessful_apply -/
example : (leProgram (place py!"machine-type-4_host" 1) (leWords ++ [py!"arm", py!"--output", py!"test_out.sh"]) [] leDisk).outcome = .exc .runtimeError := by decide +kernel

/-- test_unit_load_env.py:134 test_argument_parser_functions_correctly -/
example : (match leArgs 100 ((place [] 0).disk leDisk) py!"test_load_env.ini" id (fun _ => false) [py!"--supported-systems", py!"non_default/supported-systems.ini", py!"keyword-str"] with
      | .ok (a, fs) => decide (a.build = py!"keyword-str" ∧ fs = [py!"non_default/supported-systems.ini", py!"test_supported_envs.ini", py!"test_environment_specs.ini"])
      | _ => false) = true := by decide +kernel

/-- test_unit_load_env.py:134 test_argument_parser_functions_correctly -/
example : (match leArgs 100 ((place [] 0).disk leDisk) py!"test_load_env.ini" id (fun _ => false) [py!"--supported-envs", py!"non_default/supported-envs.ini", py!"keyword-str"] with
      | .ok (a, fs) => decide (a.build = py!"keyword-str" ∧ fs = [py!"test_supported_systems.ini", py!"non_default/supported-envs.ini", py!"test_environment_specs.ini"])
      | _ => false) = true := by decide +kernel

/-- test_unit_load_env.py:134 test_argument_parser_functions_correctly -/
example : (match leArgs 100 ((place [] 0).disk leDisk) py!"test_load_env.ini" id (fun _ => false) [py!"--environment-specs", py!"non_default/environment-specs.ini", py!"keyword-str"] with
      | .ok (a, fs) => decide (a.build = py!"keyword-str" ∧ fs = [py!"test_supported_systems.ini", py!"test_supported_envs.ini", py!"non_default/environment-specs.ini"])
      | _ => false) = true := by decide +kernel

/-- test_unit_load_env.py:160 test_load_env_ini_file_used_if_nothing_else_explicitly_specified -/
example : (match leArgs 100 ((place [] 0).disk leDisk) py!"test_load_env.ini" id (fun _ => false) [py!"build_name"] with
      | .ok (_, fs) => decide (fs = [py!"test_supported_systems.ini", py!"test_supported_envs.ini", py!"test_environment_specs.ini"])
      | _ => false) = true := by decide +kernel

/-- test_unit_load_env.py:223 test_invalid_load_env_file_raises -/
example : (leProgram { place [] 0 with leIni := py!"bad_load_env.ini" } [py!"build_name"] [] [(py!"bad_load_env.ini", py!"[invalid_section_name]\nsupported-systems : test_supported_systems.ini\nsupported-envs : test_supported_envs.ini\nenvironment-specs : test_environment_specs.ini\n")]).outcome = .exc .valueError := by decide +kernel

/-- test_unit_load_env.py:223 test_invalid_load_env_file_raises -/
example : (leProgram { place [] 0 with leIni := py!"bad_load_env.ini" } [py!"build_name"] [] [(py!"bad_load_env.ini", py!"[load-env]\nbad-key : test_supported_systems.ini\nsupported-envs : test_supported_envs.ini\nenvironment-specs : test_environment_specs.ini\n")]).outcome = .exc .valueError := by decide +kernel

/-- test_unit_load_env.py:223 test_invalid_load_env_file_raises -/
example : (leProgram { place [] 0 with leIni := py!"bad_load_env.ini" } [py!"build_name"] [] [(py!"bad_load_env.ini", py!"[load-env]\nsupported-systems : \nsupported-envs : test_supported_envs.ini\nenvironment-specs : test_environment_specs.ini\n")]).outcome = .exc .valueError := by decide +kernel

/-- test_integration_load_env.py:39 test_ekp_matches_correct_env_name -/
example : le py!"intel-hsw" false (LE.getParsedEnvName (leTool py!"machine-type-1_host")) = .ok py!"machine-type-1_intel-19.0.4-mpich-7.7.15-hsw-openmp" := by decide +kernel

/-- test_integration_load_env.py:39 test_ekp_matches_correct_env_name -/
example : le py!"arm" false (LE.getParsedEnvName (leTool py!"machine-type-4_host")) = .ok py!"machine-type-4_arm-20.0-openmpi-4.0.2-openmp" := by decide +kernel

/-- test_integration_load_env.py:69 test_loadenv_obj_can_be_reused_for_multiple_build_names -/
example : le py!"intel-hsw_config_options_here" false (do
      let p ← LE.getParsedEnvName (leTool py!"machine-type-1_host")
      let s ← LE.getSystemName (leTool py!"machine-type-1_host")
      let r ← LE.getStripped (leTool py!"machine-type-1_host")
      LE.setBuildName py!"intel-knl_config_options_here_2"
      let p' ← LE.getParsedEnvName (leTool py!"machine-type-1_host")
      let s' ← LE.getSystemName (leTool py!"machine-type-1_host")
      let r' ← LE.getStripped (leTool py!"machine-type-1_host")
      pure [p, s.getD [], r, p', s'.getD [], r']) =
    .ok [py!"machine-type-1_intel-19.0.4-mpich-7.7.15-hsw-openmp", py!"machine-type-1", py!"config_options_here", py!"machine-type-1_intel-19.0.4-mpich-7.7.15-knl-openmp", py!"machine-type-1", py!"config_options_here_2"] := by decide +kernel

/-- test_integration_load_env.py:69 test_loadenv_obj_can_be_reused_for_multiple_build_names -/
example : le py!"intel-hsw_config_options_here" false (do
      let p ← LE.getParsedEnvName (leTool py!"machine-type-1_host")
      let s ← LE.getSystemName (leTool py!"machine-type-1_host")
      let r ← LE.getStripped (leTool py!"machine-type-1_host")
      LE.setBuildName py!"arm-serial_config_options_here_2"
      let p' ← LE.getParsedEnvName (leTool py!"machine-type-4_host")
      let s' ← LE.getSystemName (leTool py!"machine-type-4_host")
      let r' ← LE.getStripped (leTool py!"machine-type-4_host")
      pure [p, s.getD [], r, p', s'.getD [], r']) =
    .ok [py!"machine-type-1_intel-19.0.4-mpich-7.7.15-hsw-openmp", py!"machine-type-1", py!"config_options_here", py!"machine-type-4_arm-20.0-openmpi-4.0.2-serial", py!"machine-type-4", py!"config_options_here_2"] := by decide +kernel

/-- test_integration_load_env.py:112 test_env_stripped_build_name_produced_correctly -/
example : le py!"rhel7_cuda_config_options_here" true (do
      let _ ← LE.getStripped (leTool [])
      LE.getStripped (leTool [])) = .ok py!"config_options_here" := by decide +kernel

/-- test_integration_load_env.py:112 test_env_stripped_build_name_produced_correctly -/
example : le py!"machine-type-1_intel-19.0.4-mpich-7.7.15-hsw-openmp_config_options_here" true (do
      let _ ← LE.getStripped (leTool [])
      LE.getStripped (leTool [])) = .ok py!"config_options_here" := by decide +kernel

/-- test_integration_load_env.py:112 test_env_stripped_build_name_produced_correctly -/
example : le py!"machine-type-1_intel_config_options_here" true (do
      let _ ← LE.getStripped (leTool [])
      LE.getStripped (leTool [])) = .ok py!"config_options_here" := by decide +kernel

/-- test_integration_load_env.py:112 test_env_stripped_build_name_produced_correctly -/
example : le py!"machine-type-1_intel-hsw_config_options_here" true (do
      let _ ← LE.getStripped (leTool [])
      LE.getStripped (leTool [])) = .ok py!"config_options_here" := by decide +kernel

/-- test_integration_load_env.py:112 test_env_stripped_build_name_produced_correctly -/
example : le py!"machine-type-4_arm-openmp_config_options_here" true (do
      let _ ← LE.getStripped (leTool [])
      LE.getStripped (leTool [])) = .ok py!"config_options_here" := by decide +kernel

/-- What LoadEnv is run with in these tests. -/
def leSite (hostname specs : Str) : Site where
  tool := leTool hostname
  envsFile := py!"test_supported_envs.ini"
  specs := read specs
  sys := (place hostname 0).sys

/-- `write_load_matching_env()` of a new object: the path, and the texts of the files. -/
def scripts (hostname build : Str) (output : Option Str) (files : Dict Str Str) : Out Str × Dict Str Str :=
  let r := App.write (leSite hostname leSpecs) py!"/tmp/me/load_matching_env.sh" output (App.new build false [] files)
  (r.1, r.2.files)

/-- test_integration_load_env.py:203 test_correct_commands_are_saved -/
example : (match Dict.get? (scripts py!"machine-type-1_host" py!"intel-hsw" none []).2 py!"/tmp/me/load_matching_env.sh" with
      | some t => [py!"module load sparc-dev/intel-19.0.4_mpich-7.7.15_hsw", py!"envvar_op set \"OMP_NUM_THREADS\" \"2\"", py!"envvar_op unset \"OMP_PLACES\"", py!"envvar_op prepend \"PATH\" \"/path/to/atdm/ninja-1.8.2/bin\"", py!"envvar_op set \"LDFLAGS\" \"-L/path/to/gcc/x86_64-suse-linux/8.3.0/ -lpthread ${LDFLAGS}\"", py!"envvar_op set \"LDFLAGS\" \"-L${MPI_ROOT}/lib -lmpich -lrt ${ATP_INSTALL_DIR}/lib/libAtpSigHandler.a ${ATP_INSTALL_DIR}/lib/libbreakpad_client_nostdlib.a ${LDFLAGS}\"", py!"envvar_op find_in_path \"MPICXX\" \"CC\"", py!"envvar_op find_in_path \"MPICC\" \"cc\"", py!"envvar_op find_in_path \"MPIF90\" \"ftn\"", py!"envvar_op set \"CXX\" \"${MPICXX}\"", py!"envvar_op set \"CC\" \"${MPICC}\"", py!"envvar_op set \"F77\" \"${MPIF90}\"", py!"envvar_op set \"FC\" \"${MPIF90}\"", py!"envvar_op set \"F90\" \"${MPIF90}\""].all fun c => occurs c t
      | none => false) = true := by decide +kernel

/-- test_integration_load_env.py:203 test_correct_commands_are_saved -/
example : (match Dict.get? (scripts py!"machine-type-4_host" py!"arm" none []).2 py!"/tmp/me/load_matching_env.sh" with
      | some t => [py!"module purge", py!"module load devpack-arm/1.2.3", py!"module unload yaml-cpp", py!"module load ninja", py!"module load cmake/3.17.1", py!"envvar_op set \"MPI_ROOT\" \"${MPI_DIR}\"", py!"envvar_op set \"BLAS_ROOT\" \"${ARMPL_DIR}\"", py!"envvar_op set \"HDF5_ROOT\" \"${HDF5_DIR}\"", py!"envvar_op set \"NETCDF_ROOT\" \"${NETCDF_DIR}\"", py!"envvar_op set \"PNETCDF_ROOT\" \"${PNETCDF_DIR}\"", py!"envvar_op set \"ZLIB_ROOT\" \"${ZLIB_DIR}\"", py!"envvar_op set \"CGNS_ROOT\" \"${CGNS_DIR}\"", py!"envvar_op set \"BOOST_ROOT\" \"${BOOST_DIR}\"", py!"envvar_op set \"METIS_ROOT\" \"${METIS_DIR}\"", py!"envvar_op set \"PARMETIS_ROOT\" \"${PARMETIS_DIR}\"", py!"envvar_op set \"SUPERLUDIST_ROOT\" \"${SUPLERLU_DIST_DIR}\"", py!"envvar_op set \"BINUTILS_ROOT\" \"${BINUTILS_DIR}\"", py!"envvar_op unset \"HWLOC_LIBS\"", py!"envvar_op set \"CC\" \"mpicc\"", py!"envvar_op set \"CXX\" \"mpicxx\"", py!"envvar_op set \"FC\" \"mpif77\"", py!"envvar_op set \"F90\" \"mpif90\"", py!"envvar_op set \"FC\" \"mpif90\"", py!"envvar_op find_in_path \"MPICC\" \"mpicc\"", py!"envvar_op find_in_path \"MPICXX\" \"mpicxx\"", py!"envvar_op find_in_path \"MPIF90\" \"mpif90\"", py!"envvar_op set \"OMP_NUM_THREADS\" \"2\""].all fun c => occurs c t
      | none => false) = true := by decide +kernel

/-- test_integration_load_env.py:233 test_load_matching_env_is_set_correctly_and_directories_are_created -/
example : (scripts py!"machine-type-4_host" py!"arm" none []).1 = .ok py!"/tmp/me/load_matching_env.sh" ∧
    (scripts py!"machine-type-4_host" py!"arm" (some py!"test_dir/load_matching_env.sh") []).1 = .ok py!"test_dir/load_matching_env.sh" := by decide +kernel

/-- test_integration_load_env.py:248 test_existing_load_matching_env_file_overwritten -/
example : (match Dict.get? (scripts py!"machine-type-4_host" py!"arm" (some py!"test_load_matching_env.sh") [(py!"test_load_matching_env.sh", py!"test file contents")]).2 py!"test_load_matching_env.sh" with
      | some t => !occurs py!"test file contents" t
      | none => false) = true := by decide +kernel

/-- test_integration_load_env.py:329 test_invalid_operations_raises -/
example : (App.load (leSite [] py!"[ATS1]\nmodule-load cmake: 3.18.0\n\n[machine-type-1_intel-19.0.4-mpich-7.7.15-hsw-openmp]\nuse ATS1\n") (App.new py!"machine-type-1_intel" true [] [])).1 = .ok () := by decide +kernel

/-- test_integration_load_env.py:329 test_invalid_operations_raises -/
example : (App.load (leSite [] py!"[ATS1]\nmodule-load cmake: 3.18.0\n\n[machine-type-1_intel-19.0.4-mpich-7.7.15-hsw-openmp]\nuse ATS1\ninvalid-operation params for op: here\n") (App.new py!"machine-type-1_intel" true [] [])).1 = .exc .valueError := by decide +kernel

/-- test_integration_load_env.py:329 test_invalid_operations_raises -/
example : (App.load (leSite [] py!"[ATS1]\nmodule-load cmake: 3.18.0\n\n[machine-type-1_intel-19.0.4-mpich-7.7.15-hsw-openmp]\ninvalid-operation params for op: here\ninvalid-operation-2 params for op: here\n") (App.new py!"machine-type-1_intel" true [] [])).1 = .exc .valueError := by decide +kernel

/-- test_integration_load_env.py:329 test_invalid_operations_raises -/
example : (App.load (leSite [] py!"[ATS1]\nmodule-load cmake: 3.18.0\n\n[machine-type-1_intel-19.0.4-mpich-7.7.15-hsw-openmp]\nuse ATS1\ninvalidOperationNoDashes params for op: here\n") (App.new py!"machine-type-1_intel" true [] [])).1 = .exc .valueError := by decide +kernel

end CPE.Conformance.Tools
