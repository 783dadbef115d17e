import Verif.Model.Parser
/-
Model of the public face of src/configparserenhanced/ConfigParserEnhanced.py for a fixed, successfully
loaded file: `parse_section`, the inner class `ConfigParserEnhancedData` (lazy access) and the asserts.
(Loading files, delimiters and resets are in `Verif/Model/Object`.)
-/
namespace CPE

/-- The state of a ConfigParserEnhanced object, file and settings apart. -/
structure Obj (δ ω : Type) extends World δ ω where
  lastResult : Option δ            -- parse_section_last_result (none: never assigned)

/-- A new object whose subclass attributes are `o`. -/
def Obj.fresh {δ ω : Type} (E : Env δ ω) (o : ω) : Obj δ ω :=
  { data := [], checked := [], shared := E.emptyShared, self := o, out := [], processed := [], log := [],
    lastResult := none }

/-- Run parser code inside the object. -/
def liftW {δ ω α : Type} (m : M (World δ ω) α) : M (Obj δ ω) α := fun o =>
  ((m o.toWorld).1, { toWorld := (m o.toWorld).2, lastResult := o.lastResult })

section
variable {δ ω : Type} (E : Env δ ω) (fuel : Nat)

/-- ConfigParserEnhanced.py:653-686 `parse_section` (console messages not modelled; `section` is a str). -/
def parseSection (s : Str) (init fin : Bool) : M (Obj δ ω) δ := do
  M.modify fun o => { o with log := [] }
  if s = [] then M.raise .valueError
  else do
    let r ← liftW (parseRoot E fuel s init fin)
    M.modify fun o => { o with lastResult := some r }
    pure r

/-- ConfigParserEnhanced.py:1787-1816 `_parse_owner_section`. -/
def parseOwner (s : Str) (force : Bool) : M (Obj δ ω) Unit := do
  let o ← M.read
  if s ∉ o.checked ∨ force = true then
    M.modify fun o => { o with checked := setAdd o.checked s }
    let _ ← parseSection E fuel s true true
    pure ()
  else pure ()

/-- ConfigParserEnhanced.py:1566-1579 `keys` (with an owner: the sections of the file). -/
def edKeys : List Str := E.cfg.sectionNames

/-- ConfigParserEnhanced.py:1662-1673 `has_section_no_parse`. -/
def hasSectionNoParse (s : Str) : M (Obj δ ω) Bool := do
  let o ← M.read
  pure (Dict.mem o.data s)

/-- ConfigParserEnhanced.py:1639-1660 `has_section` (the `except KeyError` branch raises KeyError again). -/
def edHasSection (s : Str) : M (Obj δ ω) Bool := do
  if E.cfg.hasSection s = true then
    let o ← M.read
    if s ∉ o.checked then parseOwner E fuel s false
    hasSectionNoParse s
  else hasSectionNoParse s

/-- `self.data[s]` -/
def edData (s : Str) : M (Obj δ ω) Options := do
  let o ← M.read
  match Dict.get? o.data s with
  | some d => pure d
  | none => M.raise .keyError

/-- ConfigParserEnhanced.py:1675-1678 `options`. -/
def edOptions (s : Str) : M (Obj δ ω) Options := do
  let b ← edHasSection E fuel s
  if b = true then edData s else M.raise .keyError

/-- ConfigParserEnhanced.py:1584-1587 `__getitem__`. -/
def edGetItem (s : Str) : M (Obj δ ω) Options := do
  let b ← edHasSection E fuel s
  if b = true then edData s else M.raise .keyError

/-- ConfigParserEnhanced.py:1680-1685 `has_option`. -/
def edHasOption (s k : Str) : M (Obj δ ω) Bool := do
  parseOwner E fuel s false
  let o ← M.read
  pure (match Dict.get? o.data s with
    | none => false
    | some d => Dict.mem d k)

/-- ConfigParserEnhanced.py:1687-1715 `get(section)`. -/
def edGet (s : Str) : M (Obj δ ω) Options := do
  parseOwner E fuel s false
  let b ← edHasSection E fuel s
  if b = true then edData s else M.raise .keyError

/-- ConfigParserEnhanced.py:1687-1715 `get(section, option)`. -/
def edGetOption (s k : Str) : M (Obj δ ω) (Option Str) := do
  parseOwner E fuel s false
  let b ← edHasSection E fuel s
  if b = true then do
    let h ← edHasOption E fuel s k
    if h = true then do
      let d ← edData s
      match Dict.get? d k with
      | some v => pure v
      | none => M.raise .keyError
    else M.raise .keyError
  else M.raise .keyError

/-- ConfigParserEnhanced.py:1552-1564 `items()`: parse every section, give all the stored data. -/
def edItemsAll : M (Obj δ ω) (Dict Str Options) := do
  M.forEach (edKeys E) fun s => parseOwner E fuel s false
  let o ← M.read
  pure o.data

/-- The argument of `sections(parse)`. -/
inductive SectionsArg where
  | no | yes | force
  | otherStr                      -- a str that is not "force" in any letter case
  | otherType                     -- neither bool nor str
  deriving DecidableEq, Repr

/-- ConfigParserEnhanced.py:1602-1637 `sections(parse)`. -/
def edSections (a : SectionsArg) : M (Obj δ ω) (List Str) :=
  match a with
  | .otherType => M.raise .typeError
  | .otherStr => M.raise .valueError                       -- CATASTROPHIC event
  | .no => pure (edKeys E)
  | .yes => do
    M.forEach (edKeys E) fun s => parseOwner E fuel s false
    pure (edKeys E)
  | .force => do
    M.forEach (edKeys E) fun s => parseOwner E fuel s true
    pure (edKeys E)

/-- ConfigParserEnhanced.py:1717-1735 `add_section`. -/
def edAddSection (s : Str) (force : Bool) : M (Obj δ ω) Unit :=
  M.modify fun o => if force = true ∨ Dict.mem o.data s = false then { o with data := Dict.set o.data s [] } else o

/-- ConfigParserEnhanced.py:1737-1746 `set`. -/
def edSet (s k : Str) (v : Option Str) : M (Obj δ ω) Unit := do
  let b ← edHasSection E fuel s
  if b = false then edAddSection s false
  M.modify fun o => { o with data := Dict.set o.data s (Dict.set ((Dict.get? o.data s).getD []) k v) }

/-- ConfigParserEnhanced.py:644-651 `parse_all_sections`. -/
def parseAllSections : M (Obj δ ω) Unit := do
  let _ ← edSections E fuel .yes
  pure ()

/-- Join lines with a prefix: `"".join(f"|- '{k}'\n" for k in keys)`. -/
def bulletList (keys : List Str) : Str := keys.flatMap fun k => py!"|- '" ++ k ++ py!"'\n"

/-- `sep.join(xs)` -/
def joinStr (sep : Str) : List Str → Str
  | [] => []
  | [x] => x
  | x :: xs => x ++ sep ++ joinStr sep xs

/-- ConfigParserEnhanced.py:497-508 `get_known_operations_message`. -/
def knownOperationsMessage (ops : List Str) : Str :=
  rstrip (py!"Valid operations are:\n" ++ bulletList ops)

/-- ConfigParserEnhanced.py:442-495 `assert_section_all_options_handled`: `none` is the return value 0,
`some msg` the message. `ops` and `files` are the known operations and the file names shown. -/
def assertSection (ops files : List Str) (s : Str) (doRaise : Bool) : M (Obj δ ω) (Option Str) := do
  let d ← edGet E fuel s
  if d = [] then pure none
  else do
    let msg := py!"Unhandled option found in section `" ++ s ++ py!"`" ++
      py!" or one of its dependent sections.\n" ++ py!"The following entries are unhandled:\n" ++
      bulletList (Dict.keys d)
    if doRaise = true then
      liftW (ecEvent E .serious .valueError)
      pure (some (rstrip (msg ++ knownOperationsMessage ops ++
        py!"\nThis configuration was loaded from the file(s):\n|- " ++ joinStr py!"\n|- " files)))
    else pure (some (rstrip msg))

/-- The loop of ConfigParserEnhanced.py:424-429: is some section not fully handled? -/
def assertLoop (ops files : List Str) : List Str → M (Obj δ ω) Bool
  | [] => pure false
  | s :: ss => do
    let err ← assertSection E fuel ops files s false
    let rest ← assertLoop ops files ss
    pure (err.isSome || rest)

/-- ConfigParserEnhanced.py:403-440 `assert_file_all_sections_handled`. -/
def assertFile (ops files : List Str) : M (Obj δ ω) Nat := do
  let bad ← assertLoop E fuel ops files E.cfg.sectionNames
  if bad = true then
    liftW (ecEvent E .serious .valueError)
    pure 1
  else pure 0

end

/-- Client operations on an object. -/
inductive EdOp where
  | parseSection (s : Str) (init fin : Bool)
  | parseAll
  | keys
  | len
  | sections (a : SectionsArg)
  | hasSection (s : Str)
  | hasSectionNoParse (s : Str)
  | options (s : Str)
  | getItem (s : Str)
  | hasOption (s k : Str)
  | get (s : Str)
  | getOption (s k : Str)
  | itemsAll
  | items (s : Str)
  | assertSection (s : Str) (doRaise : Bool)
  | assertFile
  | addSection (s : Str) (force : Bool)
  | set (s k : Str) (v : Option Str)
  deriving DecidableEq, Repr

/-- What an operation returns. -/
inductive EdVal (δ : Type) where
  | unit
  | bool (b : Bool)
  | nat (n : Nat)
  | names (l : List Str)
  | opts (d : Options)
  | str (v : Option Str)
  | all (d : Dict Str Options)
  | shared (d : δ)
  deriving DecidableEq, Repr

/-- One client operation. `items(s)` is `options(s).items()` (ConfigParserEnhanced.py:1563). -/
def EdOp.exec {δ ω : Type} (E : Env δ ω) (fuel : Nat) : EdOp → M (Obj δ ω) (EdVal δ)
  | .parseSection s i f => do let r ← CPE.parseSection E fuel s i f; pure (.shared r)
  | .parseAll => do parseAllSections E fuel; pure .unit
  | .keys => pure (.names (edKeys E))
  | .len => pure (.nat (edKeys E).length)
  | .sections a => do let r ← edSections E fuel a; pure (.names r)
  | .hasSection s => do let r ← edHasSection E fuel s; pure (.bool r)
  | .hasSectionNoParse s => do let r ← CPE.hasSectionNoParse s; pure (.bool r)
  | .options s => do let r ← edOptions E fuel s; pure (.opts r)
  | .getItem s => do let r ← edGetItem E fuel s; pure (.opts r)
  | .hasOption s k => do let r ← edHasOption E fuel s k; pure (.bool r)
  | .get s => do let r ← edGet E fuel s; pure (.opts r)
  | .getOption s k => do let r ← edGetOption E fuel s k; pure (.str r)
  | .itemsAll => do let r ← edItemsAll E fuel; pure (.all r)
  | .items s => do let r ← edOptions E fuel s; pure (.opts r)
  | .assertSection s b => do let r ← CPE.assertSection E fuel [] [] s b; pure (.str r)
  | .assertFile => do let r ← CPE.assertFile E fuel [] []; pure (.nat r)
  | .addSection s f => do edAddSection s f; pure .unit
  | .set s k v => do edSet E fuel s k v; pure .unit

/-- A client's history: operations one after the other, a raising one being caught by the client. -/
def EdOp.run {δ ω : Type} (E : Env δ ω) (fuel : Nat) : List EdOp → Obj δ ω → Obj δ ω
  | [], o => o
  | op :: ops, o => EdOp.run E fuel ops (op.exec E fuel o).2

end CPE
