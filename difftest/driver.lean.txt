import Verif.Model.Programs
import Verif.Model.Messages
import Lean.Data.Json
open CPE CPE.KW Lean

def S (s : Str) : Json := Json.str (String.ofList s)
def L (l : List Json) : Json := Json.arr l.toArray
def OS : Option Str → Json | none => Json.null | some s => S s
def excName (e : PyExc) : Json := match e with
  | .user t => S t
  | e => Json.str (((toString (repr e)).splitOn ".").getLast!)
def jExcept {α} (f : α → Json) : Except PyExc α → Json
  | .ok a => L [.str "ok", f a] | .error e => L [.str "exc", excName e]
def jOut {α} (f : α → Json) : Out α → Json
  | .ok a => L [.str "ok", f a] | .exc e => L [.str "exc", excName e] | .diverge => L [.str "diverge"]
def jDict (d : Dict Str (Option Str)) : Json := L (d.map fun p => L [S p.1, OS p.2])
def jCfg (c : Cfg) : Json := L [L (c.sections.map fun p => L [S p.1, jDict p.2]), jDict c.common]
def str (j : Json) (k : String) : Str := ((j.getObjValAs? String k).toOption.getD "").toList
def strs (j : Json) (k : String) : List Str := (((j.getObjValAs? (List String) k).toOption.getD []).map String.toList)
def jB (b : Bool) : Json := Json.bool b

def answer (j : Json) : Json :=
  let k := (j.getObjValAs? String "k").toOption.getD ""
  let t := str j "t"
  if k == "reader" then
    match loadFiles (fun _ => .file t) (some [py!"f"]) (strs j "ds") with
    | (r, c) => L [jExcept (fun _ => Json.null) r, match c with | some c => jCfg c | none => Json.null]
  else if k == "values" then
    match loadFiles (fun _ => .file t) (some [py!"f"]) [['='],[':']] with
    | (.ok _, some c) => L (c.sectionNames.map fun s => L (((c.optionNames s).getD []).map fun o => L [S o, jExcept OS (c.value s o)]))
    | _ => Json.null
  else if k == "shlex" then jExcept (fun l => L (l.map S)) (shlexSplit t)
  else if k == "matchesOp" then jB (matchesOp t)
  else if k == "valuesOf" then L ((valuesOf t).map S)
  else if k == "cleanKey" then S (cleanKey t)
  else if k == "space" then jB (t.all isSpace)
  else if k == "strip" then S (strip t)
  else if k == "search" then jB (searchAnywhere (str j "p") t)
  else if k == "name" then jExcept jB (nameSearch { hostname := [], rx := fun _ _ => .ok false, lower := id, upper := id } (str j "p") t)
  else if k == "splitlines" then L ((splitLines t).map S)
  else if k == "trim" then S (trimLines t)
  else if k == "path" then
    let p := PPath.ofStr t; let q := PPath.ofStr (str j "p")
    L [S p.toStr, S p.parent.toStr, S (p.join q).toStr, jB p.isAbsolute]
  else if k == "args" then
    let T := if str j "p" = py!"le" then Cli.leTable else Cli.gcTable
    jOut (fun ns => L (ns.map fun p => L [S p.1, match p.2 with | .none => .null | .bool b => .bool b | .text s => S s]))
      (Cli.parseArgs id (fun w => w.head? = some '-' && ((w.drop 1).all (fun c => c.isDigit) && w.length > 1 || 
          (let r := (w.drop 1); let a := r.takeWhile Char.isDigit; let b := r.drop a.length; b.head? = some '.' && b.length > 1 && (b.drop 1).all Char.isDigit))) T (strs j "a"))
  else if k == "bash" then
    match SetEnv.Bash.readWords (.gap []) t with
    | none => .str "NotModelled"
    | some ws => match SetEnv.Bash.expandWords [(py!"A", py!"va  l"), (py!"B", py!"$A"), (py!"E", []), (py!"AB", py!"x\"y")] ws with
      | none => .str "NotModelled"
      | some l => L (l.map S)
  else if k == "bashpat" then
    let p := str j "p"
    if SetEnv.Bash.patternSafe p = true then L [S (SetEnv.Bash.replaceGo p py!":" 0 t), S (SetEnv.Bash.dropPrefix p t), S (SetEnv.Bash.dropSuffix p t)]
    else .str "NotModelled"
  else if k == "sed" then
    let p := str j "p"
    if SetEnv.Bash.unquotedSafe t = true ∧ t.head? ≠ some '-' ∧ SetEnv.Bash.sedSafe p = true then S (SetEnv.Bash.replaceGo p [] 0 t) else .str "NotModelled"
  else if k == "expandvars" then S (SetEnv.expandvars [(py!"A", py!"va  l"), (py!"B", py!"$A"), (py!"E", []), (py!"AB", py!"x\"y")] t)
  else if k == "pycall" then
    match SetEnv.readCall t with
    | .ok ((f, args), []) => L (S f :: args.map S)
    | .ok _ => .str "NotModelled"
    | .error e => excName e
  else if k == "pyprog" then
    match SetEnv.readProgram t.length t with
    | .ok cs => L (cs.map fun c => L (S c.1 :: c.2.map S))
    | .error e => excName e
  else if k == "sort" then L ((sortStrs (strs j "a")).map S)
  else .str "?"

def main (args : List String) : IO Unit := do
  let txt ← IO.FS.readFile args.head!
  for l in txt.splitOn "\n" do
    if l ≠ "" then
      match Json.parse l with
      | .ok j => IO.println (answer j).compress
      | .error e => IO.println e
