import Verif.Model.Parser
/-
Model of `get_known_operations`, ConfigParserEnhanced.py:510-555.
-/
namespace CPE

/-- Python's `<=` on str: by code points, a prefix first. -/
def strLe : Str → Str → Bool
  | [], _ => true
  | _ :: _, [] => false
  | a :: s, b :: t => if a = b then strLe s t else decide (a.toNat < b.toNat)

/-- Insertion into a sorted list of names. -/
def insertName (x : Str) : List Str → List Str
  | [] => [x]
  | y :: ys => if strLe x y then x :: y :: ys else y :: insertName x ys

/-- `results.sort(key=lambda pair: pair[0])` of `inspect.getmembers`. -/
def sortNames : List Str → List Str
  | [] => []
  | x :: xs => insertName x (sortNames xs)

/-- `re.compile(r"^_?handler_")` (ConfigParserEnhanced.py:527, 539): what follows the prefix, if it is there. -/
def handlerSuffix (name : Str) : Option Str :=
  match List.isPrefixOf? py!"_handler_" name with
  | some m => some m
  | none => List.isPrefixOf? py!"handler_" name

/-- ConfigParserEnhanced.py:510-555 `get_known_operations`: `names` are the names of the bound methods of the object;
`inspect.getmembers` sorts them. -/
def knownOperations (names : List Str) : List Str :=
  (sortNames names).filterMap fun n =>
    match handlerSuffix n with
    | none => none
    | some m => if m = py!"finalize" ∨ m = py!"initialize" then none else some (replaceChar '_' '-' m)

end CPE
