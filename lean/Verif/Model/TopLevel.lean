import Verif.Model.Object
import Verif.Model.SetEnvironment
/-
Model of the top level files of the tools, in which the other files are named:
  wip/loadenv/load_env.py:56-96, 334-361     (cited as LE)
  wip/genconfig/gen_config.py:282-379        (cited as GC)

`ConfigParserEnhanced(file).configparserenhanceddata` is the object of `Verif/Model/Object`, of the class without
handlers. The result of the reading of the command line is given (see `Verif/Model/CommandLine`). Not modelled: `Path.resolve` (an arbitrary function).
-/
namespace CPE.KW
open CPE CPE.SetEnv

/-! ### pathlib -/

/-- A `pathlib.PurePosixPath`: its root (`""`, `"/"` or `"//"`) and its parts. -/
structure PPath where
  root : Str
  parts : List Str
  deriving DecidableEq, Repr

/-- `Path(s)`: empty parts and `.` are dropped; exactly two leading slashes are a root of their own
(called at LE:93-95, GC:330-335; pathlib.py `_parse_path`, posixpath.py `splitroot`). -/
def PPath.ofStr (s : Str) : PPath where
  root := if s.head? ≠ some '/' then []
    else if (s.drop 1).head? = some '/' ∧ (s.drop 2).head? ≠ some '/' then py!"//" else py!"/"
  parts := (splitChar '/' s).filter fun p => p ≠ [] ∧ p ≠ ['.']

/-- `str(p)` -/
def PPath.toStr (p : PPath) : Str :=
  if p.root = [] ∧ p.parts = [] then ['.'] else p.root ++ joinStr ['/'] p.parts

/-- `p.parent` -/
def PPath.parent (p : PPath) : PPath := { p with parts := p.parts.dropLast }

/-- `p / q` -/
def PPath.join (p q : PPath) : PPath := if q.root ≠ [] then q else { p with parts := p.parts ++ q.parts }

/-- `p.is_absolute()` -/
def PPath.isAbsolute (p : PPath) : Bool := p.root ≠ []

/-- `Path(s).exists()` -/
def pathExists (fs : FS) (s : Str) : Bool := fs (PPath.ofStr s).toStr ≠ .absent

/-! ### The checks -/

/-- What a tool asks of its top level file: sections, keys, and whether the named files have to exist. -/
structure TopFile where
  sections : List Str
  keys : List (Str × Str)
  mustExist : Bool

/-- LE:68-96. -/
def loadEnvTop : TopFile where
  sections := [py!"load-env"]
  keys := [(py!"load-env", py!"supported-systems"), (py!"load-env", py!"supported-envs"),
    (py!"load-env", py!"environment-specs")]
  mustExist := false

/-- GC:300-314. -/
def genConfigTop : TopFile where
  sections := [py!"gen-config", py!"load-env"]
  keys := [(py!"gen-config", py!"supported-config-flags"), (py!"gen-config", py!"config-specs"),
    (py!"load-env", py!"supported-systems"), (py!"load-env", py!"supported-envs"),
    (py!"load-env", py!"environment-specs")]
  mustExist := true

section
variable (n : Nat) (fs : FS) (ini : Str)

/-- An operation on the data of the top level file. -/
def topOp (op : EdOp) : M (Full Unit Unit) (EdVal Unit) := Full.runOp baseClass n fs op

/-- LE:68-70, GC:300-305: a section must be there. -/
def checkSection (s : Str) : M (Full Unit Unit) Unit := do
  let r ← topOp n fs (.hasSection s)
  if r = .bool true then pure () else M.raise .valueError

/-- `data[section][key]` (LE:82, GC:322). -/
def topValue (s k : Str) : M (Full Unit Unit) (Option Str) := do
  let r ← topOp n fs (.getItem s)
  match r with
  | .opts d => match Dict.get? d k with
    | some v => pure v
    | none => M.raise .keyError
  | _ => M.raise .typeError

/-- `data[section][key] = v` (LE:94, GC:331): `data[section]` is the stored dict itself. -/
def topStore (s k v : Str) : M (Full Unit Unit) Unit := do
  let r ← topOp n fs (.getItem s)
  match r with
  | .opts d => M.modify fun f => { f with obj := { f.obj with data := Dict.set f.obj.data s (Dict.set d k (some v)) } }
  | _ => M.raise .typeError

/-- LE:92-95, GC:329-333: a relative path is taken from the directory of the file (`ini` is the text of its path). -/
def putInPlace (s k v : Str) : M (Full Unit Unit) Unit :=
  if (PPath.ofStr v).isAbsolute = true then pure ()
  else topStore n fs s k ((PPath.ofStr ini).parent.join (PPath.ofStr v)).toStr

/-- GC:335-341: the file must be there; LoadEnv does not ask. -/
def checkThere (mustExist : Bool) (s k : Str) : M (Full Unit Unit) Unit :=
  if mustExist = true then do
    let v ← topValue n fs s k
    match v with
    | none => M.raise .typeError
    | some v => if pathExists fs v = true then pure () else M.raise .valueError
  else pure ()

/-- LE:72-96, GC:315-341: one key. -/
def checkKey (mustExist : Bool) (sk : Str × Str) : M (Full Unit Unit) Unit := do
  let r ← topOp n fs (.hasOption sk.1 sk.2)
  if r ≠ .bool true then M.raise .valueError
  else do
    let v ← topValue n fs sk.1 sk.2
    match v with
    | none => M.raise .valueError
    | some v =>
      if v = [] then M.raise .valueError
      else do
        putInPlace n fs ini sk.1 sk.2 v
        checkThere n fs mustExist sk.1 sk.2

/-- LE:68-96, GC:296-341 `validate_gen_config_config_data`. -/
def checkTop (t : TopFile) : M (Full Unit Unit) Unit := do
  M.forEach t.sections (checkSection n fs)
  M.forEach t.keys (checkKey n fs ini t.mustExist)

/-- A new ConfigParserEnhanced object on the file (LE:64-66, GC:289-291). -/
def topNew : Full Unit Unit := ((Full.new baseClass ()).setFiles (.one ini)).2

end

/-! ### The files of a tool -/

/-- A GenConfig object, as far as its files are concerned: `_gen_config_config_data`, and `_args` once computed. -/
structure GCTop where
  data : Option (Full Unit Unit)
  args : Option (List Str)

/-- GC:29-50. -/
def GCTop.new : GCTop := { data := none, args := none }

section
variable (n : Nat) (fs : FS) (ini : Str) (resolve : Str → Str)

/-- GC:282-294 `gen_config_config_data`. -/
def GCTop.configData : M GCTop Unit := fun g =>
  let r := checkTop n fs ini genConfigTop (g.data.getD (topNew ini))
  (r.1, { g with data := some r.2 })

/-- Code on the data. -/
def GCTop.onData {α : Type} (m : M (Full Unit Unit) α) : M GCTop α := fun g =>
  let r := m (g.data.getD (topNew ini))
  (r.1, { g with data := some r.2 })

/-- `Path(section[key]).resolve()` unless the file is given on the command line (GC:353-373, LE:345-358). -/
def chooseFile (given : Option Str) (s k : Str) : M (Full Unit Unit) Str :=
  match given with
  | some p => pure p
  | none => do
    let v ← topValue n fs s k
    match v with
    | none => M.raise .typeError
    | some v => pure (resolve (PPath.ofStr v).toStr)

/-- GC:343-377 `args`: the five files. `given` says what the command line gives for each (already resolved). The dict
`gen_config` of GC:352 is the stored one, so it is read after the first check and before the second. -/
def GCTop.getArgs (given : Str × Str → Option Str) : M GCTop (List Str) := do
  let g ← M.read
  match g.args with
  | some a => pure a
  | none => do
    GCTop.configData n fs ini
    let flags ← GCTop.onData ini (chooseFile n fs resolve (given (py!"gen-config", py!"supported-config-flags")) py!"gen-config" py!"supported-config-flags")
    let specs ← GCTop.onData ini (chooseFile n fs resolve (given (py!"gen-config", py!"config-specs")) py!"gen-config" py!"config-specs")
    GCTop.configData n fs ini
    let systems ← GCTop.onData ini (chooseFile n fs resolve (given (py!"load-env", py!"supported-systems")) py!"load-env" py!"supported-systems")
    let envs ← GCTop.onData ini (chooseFile n fs resolve (given (py!"load-env", py!"supported-envs")) py!"load-env" py!"supported-envs")
    let envspecs ← GCTop.onData ini (chooseFile n fs resolve (given (py!"load-env", py!"environment-specs")) py!"load-env" py!"environment-specs")
    let a := [flags, specs, systems, envs, envspecs]
    M.modify fun g => { g with args := some a }
    pure a

/-- LE:109-126, 334-361: the three files of a LoadEnv object; the top level file is checked by the constructor. -/
def leFiles (given : Str × Str → Option Str) : Out (List Str) :=
  (do
    checkTop n fs ini loadEnvTop
    let systems ← chooseFile n fs resolve (given (py!"load-env", py!"supported-systems")) py!"load-env" py!"supported-systems"
    let envs ← chooseFile n fs resolve (given (py!"load-env", py!"supported-envs")) py!"load-env" py!"supported-envs"
    let envspecs ← chooseFile n fs resolve (given (py!"load-env", py!"environment-specs")) py!"load-env" py!"environment-specs"
    pure [systems, envs, envspecs] : M (Full Unit Unit) (List Str)) (topNew ini) |>.1

end
end CPE.KW
