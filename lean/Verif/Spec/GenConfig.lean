import Verif.Model.GenConfig
import Verif.Spec.Keywords
/-
Specification for LoadEnv and GenConfig: what a client does with them, the environment and the configuration of a
build name as a composition of the other tools.
-/
namespace CPE.KW.Spec
open CPE CPE.Spec CPE.SetEnv

/-- What a client can do with a LoadEnv object. -/
inductive LeOp where
  | setBuildName (b : Str)
  | systemName
  | parsedEnvName
  | strippedBuildName

/-- What it gets. -/
inductive LeVal where
  | unit
  | sys (s : Option Str)
  | str (s : Str)
  deriving DecidableEq, Repr

/-- Run an operation. -/
def LeOp.exec (T : Tool) : LeOp → M LE LeVal
  | .setBuildName b => do LE.setBuildName b; pure .unit
  | .systemName => do let s ← LE.getSystemName T; pure (.sys s)
  | .parsedEnvName => do let s ← LE.getParsedEnvName T; pure (.str s)
  | .strippedBuildName => do let s ← LE.getStripped T; pure (.str s)

/-- Run a history, whatever the outcomes. -/
def LeOp.run (T : Tool) : List LeOp → LE → LE
  | [], l => l
  | op :: ops, l => LeOp.run T ops (LeOp.exec T op l).2

/-- The build name after a history that began with the build name `b`. -/
def LeOp.buildAfter (b : Str) : List LeOp → Str
  | [] => b
  | .setBuildName b' :: ops => LeOp.buildAfter b' ops
  | _ :: ops => LeOp.buildAfter b ops

/-- DetermineSystem finds the system `s` for the build name. -/
def SystemIs (T : Tool) (build : Str) (force : Bool) (s : Str) : Prop :=
  (DS.systemName (cls T.systems) T.fuel T.host (DS.new (cls T.systems) build force)).1 = .ok (some s)

/-- EnvKeywordParser finds the environment `q` for the build name on that system. -/
def EnvironmentIs (T : Tool) (build : Str) (force : Bool) (q : Str) : Prop :=
  ∃ s k, SystemIs T build force s ∧ EKP.new (cls T.envs) T.fuel build s = .ok k ∧
    (EKP.qualifiedEnvName (cls T.envs) T.fuel T.host k).1 = .ok q

/-- ConfigKeywordParser selects options with the text `o` for the build name. -/
def OptionsAre (T : Tool) (build : Str) (o : Str) : Prop :=
  ∃ k, CKP.new (cls T.flags) T.fuel build = .ok k ∧ (CKP.selectedOptionsStr (cls T.flags) T.fuel k).1 = .ok o

/-- The configuration of a build name: the environment and the options. -/
def ConfigIs (T : Tool) (build : Str) (force : Bool) (c : Str) : Prop :=
  ∃ q o, EnvironmentIs T build force q ∧ OptionsAre T build o ∧ c = q ++ o

/-- The words of `ws` with '_' between them. -/
def joined : List Str → Str
  | [] => []
  | [w] => w
  | w :: ws => w ++ '_' :: joined ws

/-- What a client can do with a GenConfig object. -/
inductive GcOp where
  | completeConfig
  | validate
  | configForOptions
  | listConfigs

/-- What it gets. -/
inductive GcVal where
  | unit
  | str (s : Str)
  | strs (l : List Str)
  deriving DecidableEq, Repr

/-- Run an operation. -/
def GcOp.exec (T : Tool) : GcOp → M GC GcVal
  | .completeConfig => do let s ← GC.completeConfig T; pure (.str s)
  | .validate => do GC.validate T; pure .unit
  | .configForOptions => do let s ← GC.configForOptions T; pure (.str s)
  | .listConfigs => do let l ← GC.listConfigs T; pure (.strs l)

/-- Run a history, whatever the outcomes. -/
def GcOp.run (T : Tool) : List GcOp → GC → GC
  | [], g => g
  | op :: ops, g => GcOp.run T ops (GcOp.exec T op g).2

/-- The operations that may validate config-specs.ini. -/
def GcOp.validates : GcOp → Bool
  | .validate => true
  | .configForOptions => true
  | _ => false

/-- In the history no operation that validates config-specs.ini failed. -/
def GcOp.Clean (T : Tool) : List GcOp → GC → Prop
  | [], _ => True
  | op :: ops, g => (op.validates = true → ∃ v, (GcOp.exec T op g).1 = .ok v) ∧ GcOp.Clean T ops (GcOp.exec T op g).2

/-- A section of config-specs.ini that is checked: its name is not all upper case. -/
def Checked (T : Tool) (s : Str) : Prop := s ∈ T.specs.sectionNames ∧ T.host.upper s ≠ s

end CPE.KW.Spec
