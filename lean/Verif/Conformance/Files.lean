import Verif.Model.Programs
/-
Conformance with the tests of the programs: wip/loadenv/loadenv/unittests/test_unit_load_env.py and
test_integration_load_env.py, wip/genconfig/tests/test_unit_gen_config.py and test_integration_gen_config.py: their .ini
files, verbatim, their command lines, and what they expect, evaluated on the model. The options of SetProgramOptionsCMake,
which is not part of the code base, are written out. These are tests of the transcription, not proofs of properties.
-/
namespace CPE.Conformance.Tools
open CPE.KW CPE.Cli CPE.SetEnv

/-- wip/loadenv/loadenv/unittests/supporting_files/test_load_env.ini -/
def leIniText : Str :=
  py!"# test_load_env.ini\n#\n#------------------------------------------------------------------------------\n#\n# This is the top-level configuration file for the `LoadEnv` tool.  The tool\n# uses three different configuration files that users can locate wherever they\n# deem appropriate within their repository.  This file points the tool to where\n# those additional configuration files are stored.  To edit the locations,\n# simply change the paths to the right of the colons.  Note that the paths are\n# relative to the directory containing this file.\n#\n#------------------------------------------------------------------------------\n\n[load-env]\nsupported-systems : test_supported_systems.ini\nsupported-envs    : test_supported_envs.ini\nenvironment-specs : test_environment_specs.ini\n"

/-- wip/loadenv/loadenv/unittests/supporting_files/test_supported_systems.ini -/
def leSystems : Str :=
  py!"[rhel7]\n\n[machine-type-1]\nmachine-type-1_host  # Comments here\n\n[test-sys-1]\n# Comment at beginning of line\ntest-sys-1.*\ntest-sys-2.*\n\n[machine-type-4]\nmachine-type-4_host\n\n[test-system]\nfoo.*\n"

/-- wip/loadenv/loadenv/unittests/supporting_files/test_supported_envs.ini -/
def leEnvs : Str :=
  py!"[rhel7]\ncee-cuda-10.1.243-gnu-7.2.0-openmpi-4.0.3:\n    cuda\n\n[machine-type-1]\n# This is a comment that takes up one or more\n# lines before you finally get to an\nintel-19.0.4-mpich-7.7.15-hsw-openmp: # Comment here\n    # Yet another comment\n    intel-hsw-openmp                  # Comment here\n    intel-hsw\n    default-env-hsw                   # It's the default\n    intel-openmp\n    intel\nintel-19.0.4-mpich-7.7.15-knl-openmp:\n    intel-knl-openmp\n    intel-knl\n    default-env-knl\n\n[test-sys-1]\ncuda-9.2-gnu-7.2.0-openmpi-2.1.2:\n    cuda-9\n    cuda\ncuda-10.1-gnu-7.2.0-openmpi-4.0.1:\n    cuda-10\ngnu-7.2.0-openmpi-2.1.2-openmp:\n    gnu-openmp\n    gnu\n    default-env\ngnu-7.2.0-openmpi-2.1.2-serial:\n    gnu-serial\n\n[machine-type-4]\narm-20.0-openmpi-4.0.2-openmp:\n    arm-20.0-openmp\n    arm-20.0\n    arm-20-openmp\n    arm-20\n    arm-openmp\n    arm\n    default-env\narm-20.0-openmpi-4.0.2-serial:\n    arm-20.0-serial\n    arm-20-serial\n    arm-serial\narm-20.1-openmpi-4.0.3-openmp:\n    arm-20.1-openmp\n    arm-20.1\narm-20.1-openmpi-4.0.3-serial:\n    arm-20.1-serial\n\n[test-system]\nenv-name-serial:\n    env-name\nenv-name-aliases-empty-string:\nenv-name-aliases-none\nanother-env:\n    with-an-alias\n"

/-- wip/loadenv/loadenv/unittests/supporting_files/test_environment_specs.ini -/
def leSpecs : Str :=
  py!"#------------------------------------------------------------------------------\n# Common environment options not specific to a particular system.\n#------------------------------------------------------------------------------\n\n[COMPILER-VARS]\nenvvar-set CC  : mpicc\nenvvar-set CXX : mpicxx\nenvvar-set FC  : mpif77\nenvvar-set F90 : mpif90\n\n[MPI-COMPILER-VARS]\nenvvar-find-in-path MPICC  : mpicc\nenvvar-find-in-path MPICXX : mpicxx\nenvvar-find-in-path MPIF90 : mpif90\n\n\n#------------------------------------------------------------------------------\n# machine-type-1\n#------------------------------------------------------------------------------\n[RHEL7_PRE]\nmodule-use                     : loadenv/unittests/modulefiles\n\n[RHEL7_POST]\nmodule-load sparc-tools/python : 3.7.9\n\n[rhel7_cee-cuda-10.1.243-gnu-7.2.0-openmpi-4.0.3]\nuse RHEL7_PRE\nmodule-load sparc-dev : cuda-10.1.243_gcc-7.2.0_openmpi-4.0.3\nuse MPI-COMPILER-VARS\nuse RHEL7_POST\n\n#------------------------------------------------------------------------------\n# machine-type-1\n#------------------------------------------------------------------------------\n\n# Partial environments intended to be `use`d within others.\n\n[ATS1]\nenvvar-prepend      PATH      : /path/to/atdm/ninja-1.8.2/bin\nenvvar-set          LDFLAGS A : -L/path/to/gcc/x86_64-suse-linux/8.3.0/ -lpthread ${LDFLAGS}\nenvvar-set          LDFLAGS B : -L${MPI_ROOT}/lib -lmpich -lrt ${ATP_INSTALL_DIR}/lib/libAtpSigHandler.a ${ATP_INSTALL_DIR}/lib/libbreakpad_client_nostdlib.a ${LDFLAGS}\nenvvar-find-in-path MPICXX    : CC\nenvvar-find-in-path MPICC     : cc\nenvvar-find-in-path MPIF90    : ftn\nenvvar-set          CXX       : ${MPICXX}\nenvvar-set          CC        : ${MPICC}\nenvvar-set          F77       : ${MPIF90}\nenvvar-set          FC        : ${MPIF90}\nenvvar-set          F90       : ${MPIF90}\n\n# Full environments intended to be loaded.\n\n[machine-type-1_intel-19.0.4-mpich-7.7.15-hsw-openmp]\nmodule-load  sparc-dev       : intel-19.0.4_mpich-7.7.15_hsw\nenvvar-set   OMP_NUM_THREADS : 2\nenvvar-unset OMP_PLACES\nuse ATS1\n\n[machine-type-1_intel-19.0.4-mpich-7.7.15-knl-openmp]\nmodule-load  sparc-dev            : intel-19.0.4_mpich-7.7.15_knl\nenvvar-set   SLURM_TASKS_PER_NODE : 16\nenvvar-set   OMP_NUM_THREADS      : 8\nenvvar-unset OMP_PLACES\nenvvar-unset OMP_PROC_BIND\nuse ATS1\n\n\n\n#------------------------------------------------------------------------------\n# machine-type-4\n#------------------------------------------------------------------------------\n\n# Partial environments intended to be `use`d within others.\n\n[VAN1-TX2]\nmodule-purge\nmodule-load  ninja            : 1.2.3            # JMG:  remove fake version\nmodule-load  cmake            : 3.17.1\nenvvar-set   MPI_ROOT         : ${MPI_DIR}\nenvvar-set   BLAS_ROOT        : ${ARMPL_DIR}\nenvvar-set   HDF5_ROOT        : ${HDF5_DIR}\nenvvar-set   NETCDF_ROOT      : ${NETCDF_DIR}\nenvvar-set   PNETCDF_ROOT     : ${PNETCDF_DIR}\nenvvar-set   ZLIB_ROOT        : ${ZLIB_DIR}\nenvvar-set   CGNS_ROOT        : ${CGNS_DIR" ++
  py!"}\nenvvar-set   BOOST_ROOT       : ${BOOST_DIR}\nenvvar-set   METIS_ROOT       : ${METIS_DIR}\nenvvar-set   PARMETIS_ROOT    : ${PARMETIS_DIR}\nenvvar-set   SUPERLUDIST_ROOT : ${SUPLERLU_DIST_DIR}\nenvvar-set   BINUTILS_ROOT    : ${BINUTILS_DIR}\nenvvar-unset HWLOC_LIBS\nuse COMPILER-VARS\nenvvar-set   FC               : mpif90\nuse MPI-COMPILER-VARS\n\n[VAN1-TX2_OPENMP]\nenvvar-set OMP_NUM_THREADS : 2\n\n[VAN1-TX2_SERIAL]\nenvvar-set OMP_PROC_BIND   : FALSE # is this the same as unset?\nenvvar-set OMP_NUM_THREADS : 1     # is this the same as unset?\n\n[VAN1-TX2_ARM-20.0-OPENMPI-4.0.2]\nmodule-load   devpack-arm : 1.2.3                # JMG:  remove fake version\nmodule-unload yaml-cpp\nmodule-load   python      : 3.6.8-arm\nmodule-load   arm         : 20.0\nmodule-load   openmpi4    : 4.0.2\nmodule-load   armpl       : 20.0.0\nmodule-load   git         : 2.19.2\nenvvar-set    LAPACK_ROOT : ${ARMPL_DIR}\nuse VAN1-TX2\n\n[VAN1-TX2_ARM-20.1-OPENMPI-4.0.3]\nmodule-load   sparc-dev : arm-20.1_openmpi-4.0.3\nmodule-unload yaml-cpp\nuse VAN1-TX2\n\n# Full environments intended to be loaded.\n\n[machine-type-4_arm-20.0-openmpi-4.0.2-openmp]\nuse VAN1-TX2_ARM-20.0-OPENMPI-4.0.2\nuse VAN1-TX2_OPENMP\n\n[machine-type-4_arm-20.0-openmpi-4.0.2-serial]\nuse VAN1-TX2_ARM-20.0-OPENMPI-4.0.2\nuse VAN1-TX2_SERIAL\n\n[machine-type-4_arm-20.1-openmpi-4.0.3-openmp]\nuse VAN1-TX2_ARM-20.1-OPENMPI-4.0.3\nuse VAN1-TX2_OPENMP\nenvvar-unset OMP_PLACES\nenvvar-unset OMP_PROC_BIND\n\n[machine-type-4_arm-20.1-openmpi-4.0.3-serial]\nuse VAN1-TX2_ARM-20.1-OPENMPI-4.0.3\nuse VAN1-TX2_SERIAL\n"

/-- wip/genconfig/tests/supporting_files/test-supported-systems.ini -/
def gcSystems : Str :=
  py!"[machine-type-5]\nmachine-name-2.*  # Comments here\n\n[machine-type-4]\nmachine-name-3.*\n\n[machine-name-1]\n# Comment at beginning of line\nmachine-name-1.*\nmachine-name-4.*\n\n[machine-type-3]\nmachine-name5.*\n\n[test-system]\nfoo.*\n"

/-- wip/genconfig/tests/supporting_files/test-supported-envs.ini -/
def gcEnvs : Str :=
  py!"[machine-type-5]\n# This is a comment that takes up one or more\n# lines before you finally get to an\nintel-19.0.4-mpich-7.7.15-hsw-openmp: # Comment here\n    # Yet another comment\n    intel-hsw-openmp                  # Comment here\n    intel-hsw\n    default-env-hsw                   # It's the default\n    intel-openmp\n    intel\nintel-19.0.4-mpich-7.7.15-knl-openmp:\n    intel-knl-openmp\n    intel-knl\n    default-env-knl\n\n[machine-type-4]\nintel-19.0.4-mpich-7.7.15-hsw-openmp: # Comment here\n    # Yet another comment\n    intel-hsw-openmp                  # Comment here\n    intel-hsw\n    default-env-hsw                   # It's the default\n    intel-openmp\n    intel\nintel-19.0.4-mpich-7.7.15-knl-openmp:\n    intel-knl-openmp\n    intel-knl\n    default-env-knl\n\n[machine-name-1]\ncuda-9.2-gnu-7.2.0-openmpi-2.1.2:\n    cuda-9\n    cuda\ncuda-10.1-gnu-7.2.0-openmpi-4.0.1:\n    cuda-10\ngnu-7.2.0-openmpi-2.1.2-openmp:\n    gnu-openmp\n    gnu\n    default-env\ngnu-7.2.0-openmpi-2.1.2-serial:\n    gnu-serial\n\n[machine-type-3]\narm-20.0-openmpi-4.0.2-openmp:\n    arm-20.0-openmp\n    arm-20.0\n    arm-20-openmp\n    arm-20\n    arm-openmp\n    arm\n    default-env\narm-20.0-openmpi-4.0.2-serial:\n    arm-20.0-serial\n    arm-20-serial\n    arm-serial\narm-20.1-openmpi-4.0.3-openmp:\n    arm-20.1-openmp\n    arm-20.1\narm-20.1-openmpi-4.0.3-serial:\n    arm-20.1-serial\n\n[test-system]\nenv-name-serial:\n    env-name\nenv-name-aliases-empty-string:\nenv-name-aliases-none\nanother-env:\n    with-an-alias\n"

/-- wip/genconfig/tests/supporting_files/test-environment-specs.ini -/
def gcSpecs : Str :=
  py!"#------------------------------------------------------------------------------\n# Common environment options not specific to a particular system.\n#------------------------------------------------------------------------------\n\n[COMPILER-VARS]\nenvvar-set CC  : mpicc\nenvvar-set CXX : mpicxx\nenvvar-set FC  : mpif77\nenvvar-set F90 : mpif90\n\n[MPI-COMPILER-VARS]\nenvvar-find-in-path MPICC  : mpicc\nenvvar-find-in-path MPICXX : mpicxx\nenvvar-find-in-path MPIF90 : mpif90\n\n\n\n#------------------------------------------------------------------------------\n# machine-type-5\n#------------------------------------------------------------------------------\n\n# Partial environments intended to be `use`d within others.\n\n[machine-type-5]\nenvvar-prepend      PATH      : /projects/netpub/atdm/ninja-1.8.2/bin\nenvvar-set          LDFLAGS A : -L/opt/gcc/8.3.0/snos/lib/gcc/x86_64-suse-linux/8.3.0/ -lpthread ${LDFLAGS}\nenvvar-set          LDFLAGS B : -L${MPI_ROOT}/lib -lmpich -lrt ${ATP_INSTALL_DIR}/lib/libAtpSigHandler.a ${ATP_INSTALL_DIR}/lib/libbreakpad_client_nostdlib.a ${LDFLAGS}\nenvvar-find-in-path MPICXX    : CC\nenvvar-find-in-path MPICC     : cc\nenvvar-find-in-path MPIF90    : ftn\nenvvar-set          CXX       : ${MPICXX}\nenvvar-set          CC        : ${MPICC}\nenvvar-set          F77       : ${MPIF90}\nenvvar-set          FC        : ${MPIF90}\nenvvar-set          F90       : ${MPIF90}\n\n# Full environments intended to be loaded.\n\n[machine-type-5_intel-19.0.4-mpich-7.7.15-hsw-openmp]\nmodule-load  sparc-dev       : intel-19.0.4_mpich-7.7.15_hsw\nenvvar-set   OMP_NUM_THREADS : 2\nenvvar-unset OMP_PLACES\nuse machine-type-5\n\n[machine-type-5_intel-19.0.4-mpich-7.7.15-knl-openmp]\nmodule-load  sparc-dev            : intel-19.0.4_mpich-7.7.15_knl\nenvvar-set   SLURM_TASKS_PER_NODE : 16\nenvvar-set   OMP_NUM_THREADS      : 8\nenvvar-unset OMP_PLACES\nenvvar-unset OMP_PROC_BIND\nuse machine-type-5\n\n\n\n#------------------------------------------------------------------------------\n# machine-type-3\n#------------------------------------------------------------------------------\n\n# Partial environments intended to be `use`d within others.\n\n[machine-type-3]\nmodule-purge\nmodule-load  ninja            : 1.2.3            # JMG:  remove fake version\nmodule-load  cmake            : 3.17.1\nenvvar-set   MPI_ROOT         : ${MPI_DIR}\nenvvar-set   BLAS_ROOT        : ${ARMPL_DIR}\nenvvar-set   HDF5_ROOT        : ${HDF5_DIR}\nenvvar-set   NETCDF_ROOT      : ${NETCDF_DIR}\nenvvar-set   PNETCDF_ROOT     : ${PNETCDF_DIR}\nenvvar-set   ZLIB_ROOT        : ${ZLIB_DIR}\nenvvar-set   CGNS_ROOT        : ${CGNS_DIR}\nenvvar-set   BOOST_ROOT       : ${BOOST_DIR}\nenvvar-set   METIS_ROOT       : ${METIS_DIR}\nenvvar-set   PARMETIS_ROOT    : ${PARMETIS_DIR}\nenvvar-set   SUPERLUDIST_ROOT : ${SUPLERLU_DIST_DIR}\nenvvar-set   BINUTILS_ROOT    : ${BINUTILS_DIR}\nenvvar-unset HWLOC_LIBS\nuse COMPILER-VARS\nenvvar-set   FC               : mpif90\nuse MPI-COMPILER-VARS\n\n[machine-type-3_OPENMP]\nenvvar-set OMP_NUM_THREADS : 2\n\n[machine-" ++
  py!"type-3_SERIAL]\nenvvar-set OMP_PROC_BIND   : FALSE # is this the same as unset?\nenvvar-set OMP_NUM_THREADS : 1     # is this the same as unset?\n\n[machine-type-3_ARM-20.0-OPENMPI-4.0.2]\nmodule-load   devpack-arm : 1.2.3                # JMG:  remove fake version\nmodule-unload yaml-cpp\nmodule-load   python      : 3.6.8-arm\nmodule-load   arm         : 20.0\nmodule-load   openmpi4    : 4.0.2\nmodule-load   armpl       : 20.0.0\nmodule-load   git         : 2.19.2\nenvvar-set    LAPACK_ROOT : ${ARMPL_DIR}\nuse machine-type-3\n\n[machine-type-3_ARM-20.1-OPENMPI-4.0.3]\nmodule-load   sparc-dev : arm-20.1_openmpi-4.0.3\nmodule-unload yaml-cpp\nuse machine-type-3\n\n# Full environments intended to be loaded.\n\n[machine-type-3_arm-20.0-openmpi-4.0.2-openmp]\nuse machine-type-3_ARM-20.0-OPENMPI-4.0.2\nuse machine-type-3_OPENMP\n\n[machine-type-3_arm-20.0-openmpi-4.0.2-serial]\nuse machine-type-3_ARM-20.0-OPENMPI-4.0.2\nuse machine-type-3_SERIAL\n\n[machine-type-3_arm-20.1-openmpi-4.0.3-openmp]\nuse machine-type-3_ARM-20.1-OPENMPI-4.0.3\nuse machine-type-3_OPENMP\nenvvar-unset OMP_PLACES\nenvvar-unset OMP_PROC_BIND\n\n[machine-type-3_arm-20.1-openmpi-4.0.3-serial]\nuse machine-type-3_ARM-20.1-OPENMPI-4.0.3\nuse machine-type-3_SERIAL\n"

/-- wip/genconfig/tests/supporting_files/test-supported-config-flags.ini -/
def gcFlags : Str :=
  py!"# Syntax:\n# [configure-flags]\n# flag1:  SELECT_ONE   # SELECT_ONE or SELECT_MANY indicates whether multiple\n#     option1          # options can be selected for that flag or not.\n#     option2\n# flag2:  SELECT_MANY  # flag names must be unique\n#     option3          # option names must also all be unique\n#     option4\n\n[configure-flags]\nuse-mpi:  SELECT_ONE\n    mpi # the first option is the default if neither is specified in the build name\n    no-mpi\nnode-type:  SELECT_ONE\n    serial\n    openmp\npackage-enables:  SELECT_MANY\n    none   # by default, don't turn anything on\n    empire\n    sparc  # flags can support more than just two options\n    muelu  # e.g., a common configuration used by the MueLu team\n    jmgate # e.g., just my personal configuration, not intended to be used by others\n# etc.\n"

/-- wip/genconfig/tests/supporting_files/test-config-specs.ini -/
def gcConfigs : Str :=
  py!"[machine-type-5]\nopt-set-cmake-var MPI_EXEC_NUMPROCS_FLAG STRING : -p\n\n[machine-type-5-EMPIRE]\nopt-set-cmake-var Trilinos_ENABLE_Panzer BOOL : ON\n\n[machine-type-5_intel-19.0.4-mpich-7.7.15-hsw-openmp_mpi_serial_none]\nuse machine-type-5\n\n[machine-type-5_intel-19.0.4-mpich-7.7.15-hsw-openmp_mpi_serial_sparc]\nuse machine-type-5\nopt-set-cmake-var TPL_ENABLE_MPI BOOL : ON\n\n[machine-type-5_intel-19.0.4-mpich-7.7.15-hsw-openmp_no-mpi_serial_sparc]\nuse machine-type-5\n\n[machine-type-5_intel-19.0.4-mpich-7.7.15-hsw-openmp_mpi_serial_empire_sparc]\nuse machine-type-5\nopt-set-cmake-var TPL_ENABLE_MPI BOOL : ON\nuse machine-type-5-EMPIRE\n\n[machine-type-4]\nopt-set-cmake-var MPI_EXEC_NUMPROCS_FLAG STRING : -p\n\n[machine-type-4_intel-19.0.4-mpich-7.7.15-hsw-openmp_no-mpi_serial_sparc]\nuse machine-type-4\n\n[machine-type-4_intel-19.0.4-mpich-7.7.15-hsw-openmp_mpi_serial_empire_sparc]\nuse machine-type-4\nopt-set-cmake-var TPL_ENABLE_MPI BOOL : ON\n"

/-- The files of the tests of load_env.py. -/
def leDisk : Dict Str Str := [(py!"test_load_env.ini", leIniText), (py!"test_supported_systems.ini", leSystems),
  (py!"test_supported_envs.ini", leEnvs), (py!"test_environment_specs.ini", leSpecs)]

/-- A gen-config.ini that names the files of the tests of gen_config.py (the repository has one that names other files). -/
def gcIniText : Str :=
  py!"[gen-config]\nsupported-config-flags : test-supported-config-flags.ini\nconfig-specs : test-config-specs.ini\n\n[load-env]\nsupported-systems : test-supported-systems.ini\nsupported-envs : test-supported-envs.ini\nenvironment-specs : test-environment-specs.ini\n"

/-- The files of the tests of gen_config.py. -/
def gcDisk : Dict Str Str := [(py!"gen-config.ini", gcIniText), (py!"test_load_env.ini", py!"[load-env]\nsupported-systems : a\nsupported-envs : b\nenvironment-specs : c\n"),
  (py!"test-supported-systems.ini", gcSystems), (py!"test-supported-envs.ini", gcEnvs),
  (py!"test-environment-specs.ini", gcSpecs), (py!"test-supported-config-flags.ini", gcFlags), (py!"test-config-specs.ini", gcConfigs)]

/-- `re.search` for the expressions of these tests: a name with `.*` behind it. -/
def rx (p s : Str) : Except PyExc Bool := .ok (isSubstr (p.takeWhile (· ≠ '.')) s)

/-- ASCII. -/
def up (s : Str) : Str := s.map Char.toUpper
def low (s : Str) : Str := s.map Char.toLower

/-- What SetProgramOptionsCMake makes of the test-config-specs.ini above. -/
def options (_ : Cfg) (c g : Str) : Out (List Str) :=
  if g = py!"bash" then
    if c = py!"machine-type-5_intel-19.0.4-mpich-7.7.15-hsw-openmp_mpi_serial_none" then .ok [py!"-DMPI_EXEC_NUMPROCS_FLAG:STRING=-p"]
    else if c = py!"machine-type-5_intel-19.0.4-mpich-7.7.15-hsw-openmp_mpi_serial_sparc" then
      .ok [py!"-DMPI_EXEC_NUMPROCS_FLAG:STRING=-p", py!"-DTPL_ENABLE_MPI:BOOL=ON"]
    else if c = py!"machine-type-5_intel-19.0.4-mpich-7.7.15-hsw-openmp_mpi_serial_empire_sparc" then
      .ok [py!"-DMPI_EXEC_NUMPROCS_FLAG:STRING=-p", py!"-DTPL_ENABLE_MPI:BOOL=ON", py!"-DTrilinos_ENABLE_Panzer:BOOL=ON"]
    else .exc .keyError
  else
    if c = py!"machine-type-5_intel-19.0.4-mpich-7.7.15-hsw-openmp_mpi_serial_none" then
      .ok [py!"set(MPI_EXEC_NUMPROCS_FLAG -p CACHE STRING \"from .ini configuration\")"]
    else if c = py!"machine-type-5_intel-19.0.4-mpich-7.7.15-hsw-openmp_mpi_serial_sparc" then
      .ok [py!"set(MPI_EXEC_NUMPROCS_FLAG -p CACHE STRING \"from .ini configuration\")", py!"set(TPL_ENABLE_MPI ON CACHE BOOL \"from .ini configuration\")"]
    else if c = py!"machine-type-5_intel-19.0.4-mpich-7.7.15-hsw-openmp_mpi_serial_empire_sparc" then
      .ok [py!"set(MPI_EXEC_NUMPROCS_FLAG -p CACHE STRING \"from .ini configuration\")", py!"set(TPL_ENABLE_MPI ON CACHE BOOL \"from .ini configuration\")",
        py!"set(Trilinos_ENABLE_Panzer ON CACHE BOOL \"from .ini configuration\")"]
    else .exc .keyError

/-- The machine: its host name, and the status of every module command. Everything that is looked for on the path is found. -/
def place (hostname : Str) (status : Int) : Place where
  fuel := 100
  host := { hostname := hostname, rx := rx, lower := low, upper := up }
  sys := { which := fun _ x => some (py!"/bin/" ++ x), module := fun _ => pure status, bashHeader := py!"<header>", pythonHeader := py!"<header>" }
  resolve := id
  neg := fun _ => false
  key := id
  other := fun _ => .absent
  leIni := py!"test_load_env.ini"
  gcIni := py!"gen-config.ini"
  tmp := py!"/tmp/me/load_matching_env.sh"
  out := py!"/tmp/me/bash_cmake_args"
  loc := py!"/tmp/me/.bash_cmake_args_loc"
  gen := options
  relative := id

/-- `m in text` -/
def occurs (m text : Str) : Bool := isSubstr m text

/-- The configuration that the model reads in a text. -/
def read (text : Str) : Cfg := ((loadFiles (fun _ => .file text) (some [py!"test.ini"]) [['='], [':']]).2).getD emptyCfg

end CPE.Conformance.Tools
