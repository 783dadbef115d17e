import Verif.Model.Object
import Verif.Model.SetEnvironment
/-
Model of the keyword tools built on ConfigParserEnhanced:
  wip/keywordparser/keywordparser/KeywordParser.py            (cited as KP)
  wip/loadenv/loadenv/EnvKeywordParser.py                     (cited as EKP)
  wip/genconfig/src/config_keyword_parser.py                  (cited as CKP)
  wip/determinesystem/determinesystem/DetermineSystem.py      (cited as DS)

All of them hold one ConfigParserEnhanced object of the base class on one file that was loaded without error
(the file is the `cfg` of the class). Messages and console output are not modelled; `sys.exit` raises SystemExit.
-/
namespace CPE.KW
open CPE CPE.SetEnv

/-- The ConfigParserEnhanced object of a tool: the base class on one loaded file (KP:23-25, DS:171-173). -/
abbrev cls (c : Cfg) : Env Unit Unit := { baseClass with cfg := c }

/-- The state of that object. -/
abbrev CObj := Obj Unit Unit

/-- The surroundings of the tools: the host name, Python's `re.search(p, s) is not None` for patterns that are not
in the simple subset below (it may raise `re.error`), `str.lower` and `str.upper`. -/
structure Host where
  hostname : Str
  rx : Str → Str → Except PyExc Bool
  lower : Str → Str
  upper : Str → Str

/-! ### KeywordParser -/

/-- One round of `\s*?#.*\n*` (KP:46): white space, '#', the rest of the line, the newlines that follow. -/
def skipComment (s : Str) : Option Str :=
  match s.dropWhile isSpace with
  | '#' :: r => some ((r.dropWhile (· != '\n')).dropWhile (· == '\n'))
  | _ => none

/-- `(?:\s*?#.*\n*)*` (KP:46): as many comments as there are. -/
def skipComments : Nat → Str → Str
  | 0, s => s
  | n + 1, s => match skipComment s with
    | some r => skipComments n r
    | none => s

/-- The class `[^#^\n]` (KP:46): neither '#', nor '^', nor a newline. -/
def isValueChar (c : Char) : Bool := c != '#' && c != '^' && c != '\n'

/-- `re.findall(r"(?:\s*?#.*\n*)*([^#^\n]*)", s)` (KP:45-47): the groups of successive matches; after an empty match
the search moves on by one character. The counter bounds the number of matches. -/
def findPieces : Nat → Str → List Str
  | 0, _ => []
  | n + 1, s =>
    let r := skipComments s.length s
    let g := r.takeWhile isValueChar
    let rest := r.dropWhile isValueChar
    if rest.length < s.length then g :: findPieces n rest
    else if s = [] then [[]]
    else [] :: findPieces n s.tail

/-- KP:45-76: the list of values in the text of a key. -/
def valuesOf (text : Str) : List Str :=
  ((findPieces (text.length + 1) text).filter (· ≠ [])).map strip

/-- `[_ for _ in set(l) if l.count(_) > 1] != []` (KP:105, EKP:176, CKP:163-164). -/
def hasDuplicates (l : List Str) : Bool := l.any fun x => decide (1 < l.count x)

/-- The two words that may contain the delimiter (KP:132, CKP:134). -/
def selectWords : List Str := [py!"SELECT_ONE", py!"SELECT_MANY"]

/-- KP:129-132: values with a blank or the delimiter. -/
def badValues (l : List Str) : List Str :=
  (l.filter fun v => v.contains ' ' || v.contains '_').filter fun v => !selectWords.contains v

section
variable (E : Env Unit Unit) (n : Nat)

/-- `self.config[section][key]` -/
def configGet (section_ key : Str) : M CObj (Option Str) := do
  let d ← edGetItem E n section_
  match Dict.get? d key with
  | some v => pure v
  | none => M.raise .keyError

/-- KP:41-43: the value is looked up a second time when it is not None. -/
def configText (section_ key : Str) : Option Str → M CObj Str
  | some _ => do
    let v ← configGet E n section_ key
    pure (v.getD [])
  | none => pure []

/-- KP:30-82 `get_values_for_section_key`, with the three assertions (KP:84-113, 115-143, 146-178). -/
def getValues (section_ key : Str) : M CObj (List Str) := do
  let v ← configGet E n section_ key
  let text ← configText E n section_ key v
  let vals := valuesOf text
  if hasDuplicates vals = true then M.raise .systemExit
  else if badValues vals ≠ [] then M.raise .systemExit
  else do
    let d ← edGetItem E n section_
    if (vals.filter fun v => (Dict.keys d).contains v) ≠ [] then M.raise .systemExit
    else pure vals

/-- The loop of KP:203-206. -/
def keyLoop (section_ value : Str) : List Str → Option Str → M CObj (Option Str)
  | [], found => pure found
  | k :: ks, found => do
    let vals ← getValues E n section_ k
    keyLoop section_ value ks (if vals.contains value then some k else found)

/-- KP:181-214 `get_key_for_section_value`. -/
def getKey (section_ value : Str) : M CObj Str := do
  let d ← edGetItem E n section_
  let found ← keyLoop E n section_ value (Dict.keys d) none
  match found with
  | none => M.raise .systemExit
  | some k => pure k

/-! ### EnvKeywordParser -/

/-- The loop of EKP:147-148. -/
def aliasLoop (sys : Str) : List Str → M CObj (List Str)
  | [] => pure []
  | k :: ks => do
    let vals ← getValues E n sys k
    let rest ← aliasLoop sys ks
    pure (vals ++ rest)

/-- EKP:133-152 `get_aliases` with `assert_alias_list_values_are_unique` (EKP:155-184). -/
def getAliases (sys : Str) : M CObj (List Str) := do
  let d ← edGetItem E n sys
  let aliases ← aliasLoop E n sys (Dict.keys d)
  if hasDuplicates aliases = true then M.raise .systemExit
  else pure aliases

end

/-- Insert into a list sorted by decreasing length, before the first shorter element or one of the same length
that came later in the original list. -/
def insertByLen (x : Str) : List Str → List Str
  | [] => [x]
  | y :: ys => if y.length ≤ x.length then x :: y :: ys else y :: insertByLen x ys

/-- `sorted(l, key=len, reverse=True)` (EKP:47-48): stable also with `reverse`. -/
def sortByLen : List Str → List Str
  | [] => []
  | x :: xs => insertByLen x (sortByLen xs)

/-- The attributes of an EnvKeywordParser (EKP:40-48); `qualified` is `_qualified_env_name` once it exists. -/
structure EKP where
  obj : CObj
  buildName : Str
  systemName : Str
  envNames : List Str
  aliases : List Str
  qualified : Option Str

/-- EKP:40-48 `__init__`. -/
def EKP.new (E : Env Unit Unit) (n : Nat) (build sys : Str) : Out EKP :=
  match (do
      let d ← edGetItem E n sys
      let al ← getAliases E n sys
      pure (Dict.keys d, al) : M CObj (List Str × List Str)) (Obj.fresh E ()) with
  | (.ok (names, al), o) => .ok
      { obj := o, buildName := build, systemName := sys, envNames := sortByLen names,
        aliases := sortByLen al, qualified := none }
  | (.exc e, _) => .exc e
  | (.diverge, _) => .diverge

/-- Characters with a special meaning in a regular expression, '.' excepted. -/
def metaChars : List Char := ['^', '$', '*', '+', '?', '{', '}', '[', ']', '\\', '|', '(', ')']

/-- A pattern of ordinary characters and '.'. -/
def simplePattern (p : Str) : Bool := p.all fun c => !metaChars.contains c

/-- Match a simple pattern at the beginning of a text; the rest of the text. '.' matches any character but newline. -/
def matchPrefix : Str → Str → Option Str
  | [], t => some t
  | _ :: _, [] => none
  | p :: ps, c :: t => if p = c ∨ (p = '.' ∧ c ≠ '\n') then matchPrefix ps t else none

/-- `(?:$|_)`: `$` also matches before a newline that ends the text. -/
def endsName (rest : Str) : Bool := rest == [] || rest == ['\n'] || rest.head? == some '_'

/-- The name and what must follow it. -/
def matchName (name t : Str) : Bool :=
  match matchPrefix name t with
  | some r => endsName r
  | none => false

/-- A match that begins with the delimiter. -/
def matchAfterDelim (name : Str) : Str → Bool
  | [] => false
  | c :: t => (c == '_' && matchName name t) || matchAfterDelim name t

/-- `re.search(f"(?:^|_){name}(?:$|_)", build_name) is not None` (EKP:91-95, 105-109) -/
def nameSearch (H : Host) (name build : Str) : Except PyExc Bool :=
  if simplePattern name = true then .ok (matchName name build || matchAfterDelim name build)
  else H.rx (py!"(?:^|_)" ++ name ++ py!"(?:$|_)") build

/-- The loops of EKP:90-100 and 104-113: the first name that is found. -/
def firstMatch (H : Host) (build : Str) : List Str → Out (Option Str)
  | [] => .ok none
  | x :: xs => match nameSearch H x build with
    | .ok true => .ok (some x)
    | .ok false => firstMatch H build xs
    | .error e => .exc e

/-- EKP:51-130 `qualified_env_name`; the delimiter is "_". The message of the exit (EKP:116-120) reads all values
again, which were all read by the constructor. -/
def EKP.qualifiedEnvName (E : Env Unit Unit) (n : Nat) (H : Host) : M EKP Str := fun k =>
  match k.qualified with
  | some q => (.ok q, k)
  | none =>
    match firstMatch H k.buildName k.envNames with
    | .exc e => (.exc e, k)
    | .diverge => (.diverge, k)
    | .ok (some name) =>
      let q := k.systemName ++ py!"_" ++ name
      (.ok q, { k with qualified := some q })
    | .ok none =>
      match firstMatch H k.buildName k.aliases with
      | .exc e => (.exc e, k)
      | .diverge => (.diverge, k)
      | .ok none => (.exc .systemExit, k)
      | .ok (some al) =>
        match getKey E n k.systemName al k.obj with
        | (.ok name, o) =>
          let q := k.systemName ++ py!"_" ++ name
          (.ok q, { k with obj := o, qualified := some q })
        | (.exc e, o) => (.exc e, { k with obj := o })
        | (.diverge, o) => (.diverge, { k with obj := o })

/-! ### ConfigKeywordParser -/

/-- The value of one flag in `selected_options`: a str or a list (CKP:109-116). -/
inductive Sel where
  | one (o : Str)
  | many (os : List Str)
  deriving DecidableEq, Repr

/-- The attributes of a ConfigKeywordParser; the options are the lazily created ones. -/
structure CKP where
  obj : CObj
  buildName : Str
  flagNames : List Str
  selected : Option (List (Str × Sel))
  selectedStr : Option Str
  defaults : Option (List Str)
  optionsList : Option (List Str)

/-- "configure-flags" (CKP:45, 130) -/
def flagSection : Str := py!"configure-flags"

/-- CKP:40-45 `__init__`. -/
def CKP.new (E : Env Unit Unit) (n : Nat) (build : Str) : Out CKP :=
  match edGetItem E n flagSection (Obj.fresh E ()) with
  | (.ok d, o) => .ok
      { obj := o, buildName := build, flagNames := Dict.keys d, selected := none, selectedStr := none,
        defaults := none, optionsList := none }
  | (.exc e, _) => .exc e
  | (.diverge, _) => .diverge

/-- Order of str by code points. -/
def strLe : Str → Str → Bool
  | [], _ => true
  | _ :: _, [] => false
  | a :: as, b :: bs => if a = b then strLe as bs else decide (a.toNat < b.toNat)

/-- Insert into a sorted list. -/
def insertSorted (x : Str) : List Str → List Str
  | [] => [x]
  | y :: ys => if strLe x y = true then x :: y :: ys else y :: insertSorted x ys

/-- `sorted(l)` (CKP:111) -/
def sortStrs : List Str → List Str
  | [] => []
  | x :: xs => insertSorted x (sortStrs xs)

/-- Run code on the ConfigParserEnhanced object. -/
def CKP.onObj {α : Type} (m : M CObj α) : M CKP α := fun k =>
  match m k.obj with
  | (r, o) => (r, { k with obj := o })

section
variable (E : Env Unit Unit) (n : Nat)

/-- CKP:120-146 `get_options_and_flag_type_for_flag`. -/
def optionsAndType (flag : Str) : M CObj (List Str × Str) := do
  let vals ← getValues E n flagSection flag
  match vals with
  | [] => M.raise .indexError
  | t :: opts => if t ∉ selectWords then M.raise .valueError else pure (opts, t)

/-- The loop of CKP:182-186. -/
def optionsLoop : List Str → M CObj (List Str)
  | [] => pure []
  | f :: fs => do
    let (opts, _) ← optionsAndType E n f
    let rest ← optionsLoop fs
    pure (opts ++ rest)

/-- CKP:179-190 `get_options_list_for_all_flags`. -/
def CKP.optionsForAllFlags : M CKP (List Str) := do
  let k ← M.read
  match k.optionsList with
  | some l => pure l
  | none => do
    let l ← CKP.onObj (optionsLoop E n k.flagNames)
    M.modify fun k => { k with optionsList := some l }
    pure l

/-- CKP:161-177 `assert_options_are_unique_across_all_flags`. -/
def CKP.assertUnique : M CKP Unit := do
  let l ← CKP.optionsForAllFlags E n
  if hasDuplicates l = true then M.raise .systemExit else pure ()

/-- CKP:99-116: what is selected for one flag, out of its options, its type and the words of the build name. -/
def selectFor (opts : List Str) (type : Str) (tokens : List Str) : Out Sel :=
  let found := opts.filter fun o => tokens.contains o
  if type = py!"SELECT_ONE" ∧ found.length > 1 then .exc .valueError
  else if type = py!"SELECT_MANY" ∧ found.length > 1 then .ok (.many (sortStrs found))
  else match found with
    | [] => match opts with
      | [] => .exc .indexError
      | o :: _ => .ok (.one o)
    | o :: _ => .ok (.one o)

/-- The loop of CKP:97-116 (`flag_names` are distinct: the keys of a dict). -/
def selectLoop (tokens : List Str) : List Str → M CObj (List (Str × Sel))
  | [] => pure []
  | f :: fs => do
    let (opts, type) ← optionsAndType E n f
    match selectFor opts type tokens with
    | .ok s => do
      let rest ← selectLoop tokens fs
      pure ((f, s) :: rest)
    | .exc e => M.raise e
    | .diverge => fun o => (.diverge, o)

/-- CKP:62-118 `selected_options`, `parse_selected_options`. -/
def CKP.selectedOptions : M CKP (List (Str × Sel)) := do
  let k ← M.read
  match k.selected with
  | some l => pure l
  | none => do
    CKP.assertUnique E n
    let l ← CKP.onObj (selectLoop E n (splitChar '_' k.buildName) k.flagNames)
    M.modify fun k => { k with selected := some l }
    pure l

/-- CKP:50-56: "_" before every selected option. -/
def selText : Sel → Str
  | .one o => '_' :: o
  | .many os => os.flatMap fun o => '_' :: o

/-- CKP:47-60 `selected_options_str`. -/
def CKP.selectedOptionsStr : M CKP Str := do
  let k ← M.read
  match k.selectedStr with
  | some s => pure s
  | none => do
    let l ← CKP.selectedOptions E n
    let s := l.flatMap fun p => selText p.2
    M.modify fun k => { k with selectedStr := some s }
    pure s

/-- The loop of CKP:151-155. -/
def defaultsLoop : List Str → M CObj (List Str)
  | [] => pure []
  | f :: fs => do
    let (opts, _) ← optionsAndType E n f
    match opts with
    | [] => M.raise .indexError
    | o :: _ => do
      let rest ← defaultsLoop fs
      pure (o :: rest)

/-- CKP:148-159 `is_default_option`. -/
def CKP.isDefaultOption (option : Str) : M CKP Bool := do
  let k ← M.read
  match k.defaults with
  | some l => pure (l.contains option)
  | none => do
    let l ← CKP.onObj (defaultsLoop E n k.flagNames)
    M.modify fun k => { k with defaults := some l }
    pure (l.contains option)

/-- CKP:196-204: assignment to `build_name`. -/
def CKP.setBuildName (b : Str) : M CKP Unit :=
  M.modify fun k => { k with selectedStr := none, selected := none, buildName := b }

end

/-! ### DetermineSystem -/

/-- The attributes of a DetermineSystem object (DS:26-33); `name` is `_system_name` once it exists (a str or None). -/
structure DS where
  obj : CObj
  buildName : Str
  force : Bool
  name : Option (Option Str)

/-- DS:26-33, 165-173 `__init__`. -/
def DS.new (E : Env Unit Unit) (build : Str) (force : Bool) : DS :=
  { obj := Obj.fresh E (), buildName := build, force := force, name := none }

/-- DS:156-163 `supported_sys_names`. -/
def sysNames (E : Env Unit Unit) : List Str := (edKeys E).filter (· ≠ py!"DEFAULT")

/-- `re.findall(r"([^#^\s]*)(?:\s*#.*)?", key)[0]` (DS:118): the longest beginning without '#', '^' and white space. -/
def cleanKey (key : Str) : Str := key.takeWhile fun c => c != '#' && c != '^' && !isSpace c

/-- A simple pattern anywhere in a text. -/
def searchAnywhere (p : Str) : Str → Bool
  | [] => (matchPrefix p []).isSome
  | c :: t => (matchPrefix p (c :: t)).isSome || searchAnywhere p t

/-- `re.findall(key, hostname) != []` (DS:124-125) -/
def hostSearch (H : Host) (key : Str) : Except PyExc Bool :=
  if simplePattern key = true then .ok (searchAnywhere key H.hostname) else H.rx key H.hostname

/-- DS:122-125: is any of the keys found in the host name? All of them are tried. -/
def anyKey (H : Host) : List Str → Out Bool
  | [] => .ok false
  | k :: ks => match hostSearch H k with
    | .error e => .exc e
    | .ok b => match anyKey H ks with
      | .ok b' => .ok (b || b')
      | .exc e => .exc e
      | .diverge => .diverge

/-- The loop of DS:110-127. -/
def hostLoop (E : Env Unit Unit) (n : Nat) (H : Host) : List Str → M CObj (Option Str)
  | [] => pure none
  | s :: ss => do
    let d ← edGetItem E n s
    match anyKey H ((Dict.keys d).map cleanKey) with
    | .ok true => pure (some s)
    | .ok false => hostLoop E n H ss
    | .exc e => M.raise e
    | .diverge => fun o => (.diverge, o)

/-- DS:130-154 `get_sys_name_from_build_name`. -/
def sysFromBuild (E : Env Unit Unit) (H : Host) (build : Str) : Out (Option Str) :=
  let tokens := splitChar '_' (H.lower build)
  match (sysNames E).filter fun s => tokens.contains s with
  | [] => .ok none
  | [s] => .ok (some s)
  | _ :: _ :: _ => .exc .systemExit

/-- DS:35-95 `system_name`, `determine_system`. -/
def DS.systemName (E : Env Unit Unit) (n : Nat) (H : Host) : M DS (Option Str) := fun ds =>
  match ds.name with
  | some r => (.ok r, ds)
  | none =>
    match hostLoop E n H (sysNames E) ds.obj with
    | (.exc e, o) => (.exc e, { ds with obj := o })
    | (.diverge, o) => (.diverge, { ds with obj := o })
    | (.ok fromHost, o) =>
      let ds := { ds with obj := o, name := some fromHost }
      match sysFromBuild E H ds.buildName with
      | .exc e => (.exc e, ds)
      | .diverge => (.diverge, ds)
      | .ok none => if fromHost = none then (.exc .systemExit, ds) else (.ok fromHost, ds)
      | .ok (some s) =>
        let ds := { ds with name := some (some s) }
        if fromHost ≠ some s ∧ ds.force = false then (.exc .systemExit, ds) else (.ok (some s), ds)

end CPE.KW
