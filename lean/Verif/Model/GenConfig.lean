import Verif.Model.Keywords
/-
Model of how LoadEnv and GenConfig turn a build name into the name of an environment and of a configuration:
  wip/loadenv/load_env.py          (cited as LE)
  wip/genconfig/gen_config.py      (cited as GC)

The command line is not modelled (for the top level file see `Verif/Model/TopLevel`): the four files are given, loaded without
error, and `args.build_name`, `args.force` are attributes. Messages and console output are not modelled.
-/
namespace CPE.KW
open CPE CPE.SetEnv

/-- The files of the tools, loaded: supported-systems.ini, supported-envs.ini, supported-config-flags.ini and
config-specs.ini; the surroundings; and the recursion fuel of the parser. -/
structure Tool where
  systems : Cfg
  envs : Cfg
  flags : Cfg
  specs : Cfg
  host : Host
  fuel : Nat

/-- The attributes of a LoadEnv object: `args.build_name`, `args.force` and the lazily created ones
(`_system_name`, `_parsed_env_name`, `_env_stripped_build_name`, `env_keyword_parser`). -/
structure LE where
  buildName : Str
  force : Bool
  systemName : Option (Option Str)
  parsed : Option Str
  stripped : Option Str
  ekp : Option EKP

/-- LE:109-129 `__init__`. -/
def LE.new (build : Str) (force : Bool) : LE :=
  { buildName := build, force := force, systemName := none, parsed := none, stripped := none, ekp := none }

/-- LE:137-149: assignment to `build_name`. -/
def LE.setBuildName (b : Str) : M LE Unit :=
  M.modify fun l => { l with systemName := none, parsed := none, stripped := none, ekp := none, buildName := b }

section
variable (T : Tool)

/-- LE:152-166 `system_name`. -/
def LE.getSystemName : M LE (Option Str) := fun l =>
  match l.systemName with
  | some r => (.ok r, l)
  | none =>
    match (DS.systemName (cls T.systems) T.fuel T.host (DS.new (cls T.systems) l.buildName l.force)).1 with
    | .ok r => (.ok r, { l with systemName := some r })
    | .exc e => (.exc e, l)
    | .diverge => (.diverge, l)

/-- LE:169-177 `load_env_keyword_parser`. (`system_name` is never None here, see DS:60-72.) -/
def LE.loadKeywordParser : M LE EKP := do
  let s ← LE.getSystemName T
  match s with
  | none => M.raise .keyError
  | some s => fun l =>
    match EKP.new (cls T.envs) T.fuel l.buildName s with
    | .ok k => (.ok k, { l with ekp := some k })
    | .exc e => (.exc e, l)
    | .diverge => (.diverge, l)

/-- `if self.env_keyword_parser is None: self.load_env_keyword_parser()` (LE:203-204, 294-295) -/
def LE.getKeywordParser : M LE EKP := do
  let l ← M.read
  match l.ekp with
  | some k => pure k
  | none => LE.loadKeywordParser T

/-- LE:196-207 `parsed_env_name`. -/
def LE.getParsedEnvName : M LE Str := do
  let l ← M.read
  match l.parsed with
  | some p => pure p
  | none => do
    let k ← LE.getKeywordParser T
    fun l => match EKP.qualifiedEnvName (cls T.envs) T.fuel T.host k with
      | (.ok q, k') => (.ok q, { l with ekp := some k', parsed := some q })
      | (.exc e, k') => (.exc e, { l with ekp := some k' })
      | (.diverge, k') => (.diverge, { l with ekp := some k' })

/-- LE:281-314 `env_stripped_build_name`. -/
def LE.getStripped : M LE Str := do
  let l ← M.read
  match l.stripped with
  | some p => pure p
  | none => do
    let k ← LE.getKeywordParser T
    let l ← M.read
    let words := splitChar '_' l.buildName
    let words := words.filter fun w => !k.envNames.contains w
    let words := words.filter fun w => !k.aliases.contains w
    let words := words.filter fun w => !(sysNames (cls T.systems)).contains w
    let p := joinStr ['_'] words
    M.modify fun l => { l with stripped := some p }
    pure p

end

/-- The attributes of a GenConfig object: `args.build_name`, `args.force`, `config_keyword_parser`, `load_env`,
`_complete_config` and `has_been_validated`. -/
structure GC where
  buildName : Str
  force : Bool
  ckp : Option CKP
  le : Option LE
  complete : Option Str
  validated : Bool

/-- GC:29-50 `__init__`. -/
def GC.new (build : Str) (force : Bool) : GC :=
  { buildName := build, force := force, ckp := none, le := none, complete := none, validated := false }

section
variable (T : Tool)

/-- GC:238-248 `load_config_keyword_parser` (when there is none). -/
def GC.loadCkp : M GC Unit := fun g =>
  match g.ckp with
  | some _ => (.ok (), g)
  | none =>
    match CKP.new (cls T.flags) T.fuel g.buildName with
    | .ok k => (.ok (), { g with ckp := some k })
    | .exc e => (.exc e, g)
    | .diverge => (.diverge, g)

/-- GC:261-280 `load_load_env`, `load_env_args` (when there is none). -/
def GC.loadLE : M GC Unit :=
  M.modify fun g => match g.le with
    | some _ => g
    | none => { g with le := some (LE.new g.buildName g.force) }

/-- Run code on the LoadEnv object. -/
def GC.onLE {α : Type} (m : M LE α) : M GC α := fun g =>
  match g.le with
  | none => (.exc .attributeError, g)
  | some l => match m l with
    | (r, l') => (r, { g with le := some l' })

/-- Run code on the ConfigKeywordParser object. -/
def GC.onCkp {α : Type} (m : M CKP α) : M GC α := fun g =>
  match g.ckp with
  | none => (.exc .attributeError, g)
  | some k => match m k with
    | (r, k') => (r, { g with ckp := some k' })

/-- GC:156-175 `complete_config`. -/
def GC.completeConfig : M GC Str := do
  let g ← M.read
  match g.complete with
  | some c => pure c
  | none => do
    GC.loadCkp T
    GC.loadLE
    let e ← GC.onLE (LE.getParsedEnvName T)
    let o ← GC.onCkp (CKP.selectedOptionsStr (cls T.flags) T.fuel)
    M.modify fun g => { g with complete := some (e ++ o) }
    pure (e ++ o)

/-- GC:191-214: the sections of config-specs.ini that are not named by their own canonical form. -/
def GC.validateLoop : List Str → M GC (List (Str × Str))
  | [] => pure []
  | s :: ss => do
    if T.host.upper s = s then GC.validateLoop ss
    else do
      GC.onLE (LE.setBuildName s)
      GC.onCkp (CKP.setBuildName s)
      let o ← GC.onCkp (CKP.selectedOptionsStr (cls T.flags) T.fuel)
      let e ← GC.onLE (LE.getParsedEnvName T)
      let rest ← GC.validateLoop ss
      pure (if e ++ o ≠ s then (s, e ++ o) :: rest else rest)

/-- GC:177-236 `validate_config_specs_ini` (a ValueError of the keyword parser is raised again as ValueError). -/
def GC.validate : M GC Unit := do
  GC.loadCkp T
  GC.loadLE
  GC.onLE (M.modify fun l => { l with force := true })
  let bad ← GC.validateLoop T (edKeys (cls T.specs))
  if bad ≠ [] then M.raise .valueError
  else do
    let g ← M.read
    GC.onLE (LE.setBuildName g.buildName)
    GC.onLE (M.modify fun l => { l with force := g.force })
    GC.onCkp (CKP.setBuildName g.buildName)
    M.modify fun g => { g with validated := true }

/-- GC:57-62, 76-81: the name under which the options are looked up: `complete_config` after the validation. -/
def GC.configForOptions : M GC Str := do
  let g ← M.read
  if g.validated = false then do
    GC.validate T
    GC.completeConfig T
  else GC.completeConfig T

/-- `str.startswith` -/
def startsWith : Str → Str → Bool
  | [], _ => true
  | _ :: _, [] => false
  | a :: as, b :: bs => a == b && startsWith as bs

/-- GC:130-154 `list_configs`: the sections that are listed before the exit. -/
def GC.listConfigs : M GC (List Str) := do
  GC.loadLE
  let s ← GC.onLE (LE.getSystemName T)
  match s with
  | none => M.raise .typeError
  | some s => pure ((edKeys (cls T.specs)).filter fun c => startsWith s c)

end
end CPE.KW
