/-
Base layer: Python strings, dictionaries, exceptions and the state-and-exception
monad in which the Python code of /repo is modelled.
-/

/-- Python `str`: a sequence of code points. (Lone surrogates, which Python allows and
Lean's `Char` does not, are left out.) -/
abbrev Str := List Char

/-- `py!"abc"` is the Python string literal `"abc"`, i.e. the list `['a','b','c']`. -/
syntax:max "py!" str : term

open Lean in
macro_rules
  | `(py!$s:str) => do
    let cs := s.getString.toList.toArray.map (fun c => (Syntax.mkCharLit c : TSyntax `term))
    `(([$cs,*] : List Char))

namespace CPE

/-! ### Python `str` primitives -/

/-- `str.isspace` of one code point, the set stripped by `str.strip()`
(CPython `_PyUnicode_IsWhitespace`; used by ConfigParserEnhanced.py:955, 965, 1029). -/
def isSpace (c : Char) : Bool :=
  let n := c.toNat
  (9 ≤ n && n ≤ 13) || (28 ≤ n && n ≤ 32) || n == 0x85 || n == 0xA0 || n == 0x1680
  || (0x2000 ≤ n && n ≤ 0x200A) || n == 0x2028 || n == 0x2029 || n == 0x202F
  || n == 0x205F || n == 0x3000

/-- `s.lstrip(p)` for a character class `p`. -/
def lstripBy (p : Char → Bool) (s : Str) : Str := s.dropWhile p

/-- `s.rstrip(p)` for a character class `p`. -/
def rstripBy (p : Char → Bool) (s : Str) : Str := (s.reverse.dropWhile p).reverse

/-- `s.strip(p)` for a character class `p`. -/
def stripBy (p : Char → Bool) (s : Str) : Str := rstripBy p (lstripBy p s)

/-- `str.strip()` (ConfigParserEnhanced.py:955, 965, 1029). -/
def strip (s : Str) : Str := stripBy isSpace s

/-- `str.rstrip()` (ConfigParserEnhanced.py:494, 507). -/
def rstrip (s : Str) : Str := rstripBy isSpace s

/-- `s.strip('"')` (ConfigParserEnhanced.py:966). -/
def stripQuotes (s : Str) : Str := stripBy (· == '"') s

/-- `s.replace(a, b)` for single characters (ConfigParserEnhanced.py:551, 1109). -/
def replaceChar (a b : Char) (s : Str) : Str := s.map fun c => if c = a then b else c

/-- Non-ASCII part of the regular-expression class `\w` (`str.isalnum()`): left abstract, no
property depends on which non-ASCII characters are alphanumeric. -/
opaque unicodeAlnum : Char → Bool

/-- The regular-expression class `\w` for `str` patterns (ConfigParserEnhanced.py:979):
exact on ASCII, abstract above. -/
def isWord (c : Char) : Bool :=
  if c.toNat < 128 then
    ('a' ≤ c && c ≤ 'z') || ('A' ≤ c && c ≤ 'Z') || ('0' ≤ c && c ≤ '9') || c == '_'
  else unicodeAlnum c

/-! ### Python `dict`, in insertion order -/

/-- Python `dict`: association list, most recently *created* key last. -/
abbrev Dict (κ ν : Type) := List (κ × ν)

namespace Dict
variable {κ ν : Type} [DecidableEq κ]

/-- `d.get(k)` -/
def get? : Dict κ ν → κ → Option ν
  | [], _ => none
  | (k', v) :: d, k => if k' = k then some v else get? d k

/-- `d[k] = v`: overwrite in place, or append a new key at the end. -/
def set : Dict κ ν → κ → ν → Dict κ ν
  | [], k, v => [(k, v)]
  | (k', v') :: d, k, v => if k' = k then (k', v) :: d else (k', v') :: set d k v

/-- `d.keys()` -/
def keys (d : Dict κ ν) : List κ := d.map Prod.fst

/-- `k in d` -/
def mem (d : Dict κ ν) (k : κ) : Bool := (get? d k).isSome

end Dict

/-- `set.add` (only membership is observable). -/
def setAdd {κ : Type} [DecidableEq κ] (s : List κ) (k : κ) : List κ := if k ∈ s then s else k :: s

/-- `set.remove` when the element is present. -/
def setDel {κ : Type} [DecidableEq κ] (s : List κ) (k : κ) : List κ := s.filter fun x => decide (x ≠ k)

/-! ### Exceptions and outcomes -/

/-- Exceptions, by class. Messages are not modelled. -/
inductive PyExc where
  | keyError | valueError | typeError | indexError | runtimeError | ioError
  | unboundLocalError | attributeError | ambiguousHandler | systemExit
  | interpolationSyntax | interpolationMissing | interpolationDepth
  | duplicateOption | duplicateSection | missingSectionHeader | parsingError
  | user (tag : Str)
  deriving DecidableEq, Repr

/-- Outcome of a piece of Python: a value, a raised exception, or no outcome within the recursion
fuel (a run that is out of fuel for every fuel never ends). -/
inductive Out (α : Type) where
  | ok (a : α)
  | exc (e : PyExc)
  | diverge
  deriving DecidableEq, Repr

/-- Python code: mutates a world `W` and has an outcome. The world survives exceptions. -/
abbrev M (W α : Type) := W → Out α × W

namespace M
variable {W α β : Type}

/-- `return a` -/
def pure (a : α) : M W α := fun w => (.ok a, w)

/-- sequencing: exceptions and divergence propagate, keeping the world reached. -/
def bind (m : M W α) (f : α → M W β) : M W β := fun w =>
  match m w with
  | (.ok a, w') => f a w'
  | (.exc e, w') => (.exc e, w')
  | (.diverge, w') => (.diverge, w')

instance : Monad (M W) where
  pure := M.pure
  bind := M.bind

/-- `raise e` -/
def raise (e : PyExc) : M W α := fun w => (.exc e, w)

/-- read the world -/
def read : M W W := fun w => (.ok w, w)

/-- mutate the world -/
def modify (f : W → W) : M W Unit := fun w => (.ok (), f w)

/-- lift a pure computation that may raise -/
def ofExcept : Except PyExc α → M W α
  | .ok a => M.pure a
  | .error e => M.raise e

/-- `for x in xs: body` -/
def forEach {ι : Type} (xs : List ι) (body : ι → M W Unit) : M W Unit :=
  match xs with
  | [] => M.pure ()
  | x :: xs => M.bind (body x) fun _ => forEach xs body

end M
end CPE
