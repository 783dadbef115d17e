import Verif.Model.ModuleHelper
/-
Conformance with wip/setenvironment/src/setenvironment/unittests/test_ModuleHelper.py, without LMOD: what its mocks of
`Popen` return, and what `module` is expected to give. (The test with the status None, line 354, is not modelled.)
These are tests of the transcription, not proofs of properties.
-/
namespace CPE.Conformance.ModuleHelper
open CPE.MH

/-- `modulecmd` is there; a process leaves `p`; its output is executed as `run` says. -/
def host (p : Proc) (run : Str → Out (Option Bool)) : Host where
  finder _ := some py!"/usr/bin/modulecmd"
  which _ _ := none
  typeModule _ := none
  popen _ _ := .ok p
  exec s := fun env => (run s, env)
  lmod _ := pure ([], [])
  system _ _ := 0

/-- The status of `module(command, *arguments)`. -/
def status (H : Host) (command arguments : List Str) : Out Int := (module H command arguments []).1

/-- Python, as far as these tests execute it. -/
def python (s : Str) : Out (Option Bool) :=
  if s = py!"_mlstatus = True" then .ok (some true)
  else if s = py!"_mlstatus = False" then .ok (some false)
  else if s = py!"raise Exception('Exception generated by mock popen')" then .exc (.user py!"Exception")
  else .ok none

/-- The mock that succeeds. -/
def good : Host := host ⟨py!"os.environ['__foobar__'] ='baz'\ndel os.environ['__foobar__']", [], 0⟩ python

/-- test_ModuleHelper.py:247 test_ModuleHelper_module_load_status_ok -/
example : status good [py!"load"] [py!"dummy-gcc/4.8.4"] = .ok 0 := by decide +kernel

/-- test_ModuleHelper.py:254 test_ModuleHelper_module_load_status_error_return -/
example : status (host ⟨py!"stdout=1", py!"ERROR: Something wrong happened.", 1⟩ python) [py!"load"] [py!"dummy-gcc/4.8.4"] = .ok 1 := by decide +kernel

/-- test_ModuleHelper.py:263 test_ModuleHelper_module_load_status_error_stderr -/
example : status (host ⟨py!"os.environ['__foobar__'] ='baz'\ndel os.environ['__foobar__']", py!"ERROR: Something wrong happened.", 0⟩ python)
    [py!"load"] [py!"dummy-gcc/4.8.4"] = .ok 1 := by decide +kernel

/-- test_ModuleHelper.py:277 test_ModuleHelper_module_swap_status_ok -/
example : status good [py!"swap"] [py!"dummy-gcc/4.8.4", py!"dummy-gcc/7.3.0"] = .ok 0 := by decide +kernel

/-- test_ModuleHelper.py:285 test_ModuleHelper_module_unload_status_ok -/
example : status good [py!"unload"] [py!"dummy-gcc/4.8.4"] = .ok 0 := by decide +kernel

/-- test_ModuleHelper.py:293 test_ModuleHelper_module_load_args_as_list -/
example : status good [py!"unload", py!"dummy-gcc/4.8.4"] [] = .ok 0 := by decide +kernel

/-- test_ModuleHelper.py:307 test_ModuleHelper_module_load_success_by_mlstatus -/
example : status (host ⟨py!"_mlstatus = True", [], 0⟩ python) [py!"load"] [py!"dummy-gcc/4.8.4"] = .ok 0 := by decide +kernel

/-- test_ModuleHelper.py:316 test_ModuleHelper_module_load_error_by_mlstatus -/
example : status (host ⟨py!"_mlstatus = False", [], 0⟩ python) [py!"load"] [py!"dummy-gcc/4.8.4"] = .ok 1 := by decide +kernel

/-- test_ModuleHelper.py:335 test_ModuleHelper_module_load_error_exception -/
example : status (host ⟨py!"raise Exception('Exception generated by mock popen')", [], 0⟩ python) [py!"load"] [py!"gcc/4.8.4"] =
    .exc (.user py!"Exception") := by decide +kernel

/-- test_ModuleHelper.py:375 test_ModuleHelper_modulecmd_not_found: nothing is found on the path, and `type module` says
nothing of use. -/
example : status { good with finder := fun _ => none } [py!"load"] [py!"dummy-gcc/4.8.4"] = .exc fileNotFound ∧
    status { good with finder := fun _ => none, typeModule := fun _ => some py!"module is a function" } [py!"load"] [py!"dummy-gcc/4.8.4"] = .exc fileNotFound := by
  decide +kernel

end CPE.Conformance.ModuleHelper
