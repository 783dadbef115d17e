import Verif.Model.IniText
import Verif.Model.EnhancedData
/-
Model of the life cycle of a ConfigParserEnhanced object: the file list, the lazily loaded `configparserdata`,
the delimiters with their reset, and `unroll_to_str`
(src/configparserenhanced/ConfigParserEnhanced.py:147-371, 557-638, 1322-1346).
-/
namespace CPE

/-- What is found on disk under a path. `unreadable`: a file that exists but that `open` rejects. -/
inductive FNode where
  | absent
  | dir
  | unreadable
  | file (text : Str)
  deriving DecidableEq, Repr

/-- The file system, by path. Texts are decoded (`encoding='utf-8'`, ConfigParserEnhanced.py:283); decoding errors
are not modelled, and neither is the normalisation done by `pathlib.Path`. -/
abbrev FS := Str → FNode

/-- `path.exists() and path.is_file()` (ConfigParserEnhanced.py:272). -/
def FNode.isFile : FNode → Bool
  | .file _ => true
  | .unreadable => true
  | _ => false

/-- `_internal_default_section_name` (ConfigParserEnhanced.py:171-173). -/
def commonSectionName : Str := py!"CONFIGPARSERENHANCED_COMMON"

/-- A parser that has read nothing. -/
def emptyCfg : Cfg := { sections := [], commonName := commonSectionName }

/-- `ConfigParser.read(filenames)` (configparser.py:665-692): one file after the other into the same parser; files
that cannot be opened are skipped. -/
def readFiles (fs : FS) (ds : List Str) : List Str → Reader → Option PyExc × Reader
  | [], r => (none, r)
  | p :: ps, r => match fs p with
    | .file text => match r.file commonSectionName ds text with
      | (none, r) => readFiles fs ds ps r
      | (some e, r) => (some e, r)
    | _ => readFiles fs ds ps r

/-- ConfigParserEnhanced.py:247-290: the first access to `configparserdata`. Gives the result, and what
`_configparserdata` is afterwards (`none`: deleted): the parser object is stored before anything can fail. -/
def loadFiles (fs : FS) (files : Option (List Str)) (ds : List Str) : Except PyExc Cfg × Option Cfg :=
  match files with
  | none => (.error .valueError, some emptyCfg)              -- `inifilepath` raises
  | some [] => (.error .valueError, some emptyCfg)
  | some ps =>
    if ps.all (fun p => (fs p).isFile) = false then (.error .ioError, some emptyCfg)
    else match readFiles fs ds ps {} with
      | (none, r) => (.ok (r.cfg commonSectionName), some (r.cfg commonSectionName))
      | (some e, r) =>
        if e = .duplicateOption then (.error e, none)
        else (.error e, some (r.cfg commonSectionName))

/-- The state of a ConfigParserEnhanced object. The remaining settings and the methods of the class are in an
`Env`, whose `cfg` and `level` are not used. -/
structure Full (δ ω : Type) where
  files : Option (List Str) := none          -- _inifilepath
  delims : Option (List Str) := none         -- _configparser_delimiters
  cfg : Option Cfg := none                   -- _configparserdata
  level : Nat := 4                           -- exception_control_level
  obj : Obj δ ω

/-- What a client may assign to `inifilepath`; in a list, `none` is an entry that `Path()` rejects. -/
inductive PathArg where
  | one (p : Str)
  | many (ps : List (Option Str))
  | badType
  deriving DecidableEq, Repr

section
variable {δ ω : Type}

/-- ConfigParserEnhanced.py:147-158 a new object, `filename` not given. -/
def Full.new (K : Env δ ω) (o : ω) : Full δ ω := { obj := Obj.fresh K o }

/-- The parse environment of the object once `c` is loaded. -/
def Full.env (K : Env δ ω) (f : Full δ ω) (c : Cfg) : Env δ ω := { K with cfg := c, level := f.level }

/-- ConfigParserEnhanced.py:295-313 getter: the default is `('=', ':')`. -/
def Full.delimiters (f : Full δ ω) : List Str := f.delims.getD [['='], [':']]

/-- ConfigParserEnhanced.py:315-324 setter, with `_reset_configparserdata` (1322-1335); `none`: a value of a wrong
type. A str is the list of its characters. -/
def Full.setDelims (v : Option (List Str)) (f : Full δ ω) : Out Unit × Full δ ω :=
  match v with
  | none => (.exc .typeError, f)
  | some ds =>
    (.ok (), { f with delims := some ds, cfg := none,
                      obj := { f.obj with log := [], data := [], checked := [], lastResult := none } })

/-- The loop of ConfigParserEnhanced.py:213-218: the entries up to the first bad one. -/
def pathPrefix : List (Option Str) → List Str × Bool
  | [] => ([], true)
  | none :: _ => ([], false)
  | some p :: ps => (p :: (pathPrefix ps).1, (pathPrefix ps).2)

/-- ConfigParserEnhanced.py:206-221: the entries of a list. A first assignment resets nothing. -/
def Full.assignFiles (entries : List (Option Str)) (f : Full δ ω) : Out Unit × Full δ ω :=
  let f := if f.files.isSome = true then { f with cfg := none, obj := { f.obj with log := [] } } else f
  let r := pathPrefix entries
  (if r.2 = true then .ok () else .exc .typeError, { f with files := some r.1 })

/-- ConfigParserEnhanced.py:197-222 setter of `inifilepath`. -/
def Full.setFiles (v : PathArg) (f : Full δ ω) : Out Unit × Full δ ω :=
  match v with
  | .badType => (.exc .typeError, f)
  | .one p => f.assignFiles [some p]
  | .many ps => f.assignFiles ps

/-- ExceptionControl.py:207-213. -/
def Full.setLevel (i : Int) (f : Full δ ω) : Full δ ω := { f with level := (min 5 (max 0 i)).toNat }

/-- ConfigParserEnhanced.py:225-292 `configparserdata`. -/
def Full.configdata (fs : FS) (f : Full δ ω) : Out Cfg × Full δ ω :=
  match f.cfg with
  | some c => (.ok c, f)
  | none =>
    let r := loadFiles fs f.files f.delimiters
    (match r.1 with | .ok c => .ok c | .error e => .exc e, { f with cfg := r.2 })

/-- `_parse_section_r(s)` called without `handler_parameters` (ConfigParserEnhanced.py:888-933), up to its first
access to `configparserdata`. -/
def touchParse (K : Env δ ω) (s : Str) (init : Bool) : M (Obj δ ω) Bool := do
  M.modify fun o => { o with log := [] }
  if s = [] then M.raise .valueError
  else do
    M.modify fun o => { o with processed := [], shared := K.emptyShared, log := [],
                               checked := setAdd o.checked s }
    if init = true then
      liftW (callHandler K K.hookInit
        { sectionName := s, sectionRoot := s, handlerName := py!"handler_initialize" })
    else liftW (logAdd K (.sectionEntry s))
    pure true

/-- ConfigParserEnhanced.py:1806-1816: `_parse_owner_section(s)` up to its first access to `configparserdata`;
false if it makes none. -/
def touchOwner (K : Env δ ω) (s : Str) : M (Obj δ ω) Bool := do
  let o ← M.read
  if s ∉ o.checked then
    M.modify fun o => { o with checked := setAdd o.checked s }
    touchParse K s true
  else pure false

/-- An operation up to its first access to `configparserdata` (`ok true`); `ok false` if it makes none.
`has_section`, `options`, `[]`, `keys`, `items`, `set` start with such an access (ConfigParserEnhanced.py:1552-1746). -/
def EdOp.touch (K : Env δ ω) : EdOp → M (Obj δ ω) Bool
  | .parseSection s i _ => touchParse K s i
  | .hasOption s _ => touchOwner K s
  | .get s => do let _ ← touchOwner K s; pure true
  | .getOption s _ => do let _ ← touchOwner K s; pure true
  | .assertSection s _ => do let _ ← touchOwner K s; pure true
  | .hasSectionNoParse _ => pure false
  | .addSection _ _ => pure false
  | .sections .otherStr => pure false
  | .sections .otherType => pure false
  | _ => pure true

/-- The section that an operation parses first of all, if it does so (ConfigParserEnhanced.py:470, 640-678, 1646-1668,
1806-1816). -/
def EdOp.parses (o : Obj δ ω) : EdOp → Option Str
  | .parseSection s _ _ => some s
  | .hasOption s _ => if s ∉ o.checked then some s else none
  | .get s => if s ∉ o.checked then some s else none
  | .getOption s _ => if s ∉ o.checked then some s else none
  | .assertSection s _ => if s ∉ o.checked then some s else none
  | _ => none

/-- ConfigParserEnhanced.py:937-943: the message of the KeyError about a missing section reads `inifilepath`, which is a
ValueError if it was never assigned (193-194). The configuration has no section then (a failed load has left it), so
only the section that is asked for can be missing. Simplification: the same happens in `assert_section_all_options_handled`
(489) when the client has stored options by hand; there the ValueError also comes at the levels that would only warn. -/
def Full.missing (K : Env δ ω) (op : EdOp) (c : Cfg) (f : Full δ ω) (r : Out (EdVal δ)) : Out (EdVal δ) :=
  match f.files, op.parses f.obj, r with
  | none, some s, .exc .keyError =>
    if c.optionNames s = none ∧ (op.touch (f.env K c) f.obj).1 = .ok true then .exc .valueError else r
  | _, _, _ => r

/-- An operation of `Verif/Model/EnhancedData` on an object whose file may not be loaded yet: the first access loads
it, and the operation stops there if that raises. -/
def Full.runOp (K : Env δ ω) (n : Nat) (fs : FS) (op : EdOp) (f : Full δ ω) : Out (EdVal δ) × Full δ ω :=
  match f.cfg with
  | some c =>
    let r := op.exec (f.env K c) n f.obj
    (f.missing K op c r.1, { f with obj := r.2 })
  | none => match op.touch (f.env K emptyCfg) f.obj with
    | (.ok false, _) =>
      let r := op.exec (f.env K emptyCfg) n f.obj
      (r.1, { f with obj := r.2 })
    | (.ok true, o) => match f.configdata fs with
      | (.ok c, f') =>
        let r := op.exec (f.env K c) n f.obj
        (r.1, { f' with obj := r.2 })
      | (.exc e, f') => (.exc e, { f' with obj := o })
      | (.diverge, f') => (.diverge, f')
    | (.exc e, o) => (.exc e, { f with obj := o })
    | (.diverge, o) => (.diverge, { f with obj := o })

/-- ConfigParserEnhanced.py:587-602: one section of the output of `unroll_to_str`. -/
def genSection (E : Env δ ω) (n : Nat) (delim s : Str) : M (Obj δ ω) Str := do
  let b ← edHasSection E n s
  if b = true then do
    let d ← edOptions E n s
    pure (py!"[" ++ s ++ py!"]\n" ++
      d.flatMap fun kv => strip (kv.1 ++ delim ++ kv.2.getD []) ++ py!"\n")
  else M.raise .keyError

/-- The loop of ConfigParserEnhanced.py:622-624. -/
def genAll (E : Env δ ω) (n : Nat) (delim : Str) : List Str → M (Obj δ ω) Str
  | [] => pure []
  | s :: ss => do
    let a ← genSection E n delim s
    let b ← genAll E n delim ss
    pure (a ++ py!"\n" ++ b)

/-- ConfigParserEnhanced.py:606-638, once the file is loaded. -/
def unrollBody (E : Env δ ω) (n : Nat) (sec : Option Str) (space : Bool) : M (Obj δ ω) Str := do
  let delim := if space = true then py!" : " else py!":"
  let out ← match sec with
    | none => genAll E n delim (edKeys E)
    | some s => genSection E n delim s
  pure (strip out ++ py!"\n")

/-- `unroll_to_str` on the object `f` itself: level 0 during the work, restored if nothing is raised
(ConfigParserEnhanced.py:615-638 with `use_base_class_parser=False`). -/
def Full.unrollSelf (K : Env δ ω) (n : Nat) (fs : FS) (sec : Option Str) (space : Bool) (f : Full δ ω) :
    Out Str × Full δ ω :=
  let f0 := { f with level := 0 }
  match f0.configdata fs with
  | (.ok c, f1) => match unrollBody (f1.env K c) n sec space f1.obj with
    | (.ok text, o) => (.ok text, { f1 with obj := o, level := f.level })
    | (.exc e, o) => (.exc e, { f1 with obj := o })
    | (.diverge, o) => (.diverge, { f1 with obj := o })
  | (.exc e, f1) => (.exc e, f1)
  | (.diverge, f1) => (.diverge, f1)

/-- The hooks of the base class return 0 (ConfigParserEnhanced.py:822-863). -/
def baseHook : Handler Unit Unit := { decorated := true, run := fun _ d o => (.ok (.int 0), d, o) }

/-- The class ConfigParserEnhanced itself: no handlers but `_handler_use`. -/
def baseClass : Env Unit Unit where
  cfg := emptyCfg
  hookInit := baseHook
  hookFinal := baseHook
  pub _ := none
  priv op := if op = py!"use" then some .use else none
  emptyShared := ()

/-- ConfigParserEnhanced.py:557-638 `unroll_to_str`; `base` is `use_base_class_parser`, in which case the work is
done by a new base class object on the same files, with default settings. `section` is a str or None. -/
def Full.unroll (K : Env δ ω) (n : Nat) (fs : FS) (sec : Option Str) (space base : Bool) (f : Full δ ω) :
    Out Str × Full δ ω :=
  if base = true then
    match f.files with
    | none => (.exc .valueError, f)
    | some ps =>
      (((Full.new baseClass ()).setFiles (.many (ps.map some))).2.unrollSelf baseClass n fs sec space |>.1, f)
  else f.unrollSelf K n fs sec space

/-- Everything a client can do with an object. -/
inductive FOp where
  | files (v : PathArg)
  | delims (v : Option (List Str))
  | level (i : Int)
  | configdata
  | lastResult
  | ed (op : EdOp)
  | unroll (sec : Option Str) (space base : Bool)
  deriving DecidableEq, Repr

/-- What an operation gives back. -/
inductive FVal (δ : Type) where
  | unit
  | cfg (c : Cfg)
  | last (r : Option δ)
  | ed (v : EdVal δ)
  | text (s : Str)
  deriving DecidableEq, Repr

/-- Change the value of a result. -/
def Out.map' {α β : Type} (g : α → β) : Out α → Out β
  | .ok a => .ok (g a)
  | .exc e => .exc e
  | .diverge => .diverge

/-- One operation, with the file system as it is at that moment. -/
def FOp.exec (K : Env δ ω) (n : Nat) (fs : FS) : FOp → Full δ ω → Out (FVal δ) × Full δ ω
  | .files v, f => (Out.map' (fun _ => .unit) (f.setFiles v).1, (f.setFiles v).2)
  | .delims v, f => (Out.map' (fun _ => .unit) (f.setDelims v).1, (f.setDelims v).2)
  | .level i, f => (.ok .unit, f.setLevel i)
  | .configdata, f => (Out.map' .cfg (f.configdata fs).1, (f.configdata fs).2)
  | .lastResult, f => (.ok (.last f.obj.lastResult), f)
  | .ed op, f => (Out.map' .ed (f.runOp K n fs op).1, (f.runOp K n fs op).2)
  | .unroll sec sp b, f => (Out.map' .text (f.unroll K n fs sec sp b).1, (f.unroll K n fs sec sp b).2)

/-- A history: operations one after the other, exceptions being caught by the client; the file system may change
between operations. Gives what the client saw, and the final state. -/
def FOp.run (K : Env δ ω) (n : Nat) : List (FS × FOp) → Full δ ω → List (Out (FVal δ)) × Full δ ω
  | [], f => ([], f)
  | (fs, op) :: ops, f =>
    let r := op.exec K n fs f
    let rest := FOp.run K n ops r.2
    (r.1 :: rest.1, rest.2)

end
end CPE
