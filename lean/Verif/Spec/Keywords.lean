import Verif.Model.Keywords
import Verif.Spec.Dispatch
/-
Specification for the keyword tools: what the text of a key lists, what makes a section acceptable, when a name
occurs in a build name, which name wins, what is selected for a flag.
-/
namespace CPE.KW.Spec
open CPE CPE.Spec CPE.SetEnv

/-! ### The values of a key -/

/-- The words on one line: the line up to the first '#', cut at every '^'. -/
def lineWords (line : Str) : List Str := splitChar '^' (line.takeWhile (· != '#'))

/-- The words of a text: line by line, without blanks at both ends, blank ones left out. -/
def words (text : Str) : List Str :=
  (((splitChar '\n' text).flatMap lineWords).map strip).filter (· ≠ [])

/-- The text of a key: a key without value has an empty text. -/
def textOf (v : Option Str) : Str := v.getD []

/-- `l` lists the same strings as `ws`, apart from empty strings. -/
def SameWords (l ws : List Str) : Prop := l.filter (· ≠ []) = ws

/-- The rules for the values of one key of a section: no value twice, no blank or '_' in a value (apart from the two
words SELECT_ONE, SELECT_MANY), no value that is also a key of the section. -/
structure Acceptable (d : Options) (vals : List Str) : Prop where
  nodup : vals.Nodup
  plain : ∀ v ∈ vals, ' ' ∈ v ∨ '_' ∈ v → v = py!"SELECT_ONE" ∨ v = py!"SELECT_MANY"
  notKey : ∀ v ∈ vals, v ∉ Dict.keys d

/-- The values of key `k` in the section with data `d`. -/
def valuesIn (d : Options) (k : Str) : List Str := valuesOf (textOf ((Dict.get? d k).getD none))

/-- All keys of the section are acceptable. -/
def AllAcceptable (d : Options) : Prop := ∀ k ∈ Dict.keys d, Acceptable d (valuesIn d k)

/-- All values of a section in the order of the file. -/
def allValues (d : Options) : List Str := (Dict.keys d).flatMap (valuesIn d)

/-- `k` is the last key of the section that lists `v`. -/
def LastKeyWith (d : Options) (v k : Str) : Prop :=
  ∃ pre post, Dict.keys d = pre ++ k :: post ∧ v ∈ valuesIn d k ∧ ∀ k' ∈ post, v ∉ valuesIn d k'

/-! ### Names in a build name -/

/-- Two texts of the same length that agree, '.' on the left standing for any character but a newline. -/
inductive Fits : Str → Str → Prop
  | nil : Fits [] []
  | eq {c a b} : Fits a b → Fits (c :: a) (c :: b)
  | dot {c a b} : c ≠ '\n' → Fits a b → Fits ('.' :: a) (c :: b)

/-- The name occurs in the build name between delimiters: at the beginning or after '_', and at the end or before
'_' (a newline at the very end does not count). -/
def Occurs (name build : Str) : Prop :=
  ∃ pre x post, build = pre ++ x ++ post ∧ Fits name x ∧
    (pre = [] ∨ ∃ p, pre = p ++ ['_']) ∧ (post = [] ∨ post = ['\n'] ∨ ∃ q, post = '_' :: q)

/-- `x` is a longest element of `l` with property `p`, the first one among the longest. -/
def Best (p : Str → Prop) (l : List Str) (x : Str) : Prop :=
  ∃ pre post, l = pre ++ x :: post ∧ p x ∧
    (∀ y ∈ pre, p y → y.length < x.length) ∧ (∀ y ∈ post, p y → y.length ≤ x.length)

/-- The environment named by a build name in a section: the best name that occurs; if no name occurs, the one with
the best alias that occurs. -/
inductive Chosen (d : Options) (build : Str) : Str → Prop
  | name {e} : Best (Occurs · build) (Dict.keys d) e → Chosen d build e
  | alias {e a} : (∀ e' ∈ Dict.keys d, ¬ Occurs e' build) → Best (Occurs · build) (allValues d) a →
      e ∈ Dict.keys d → a ∈ valuesIn d e → Chosen d build e

/-- Only ordinary characters and '.' in the names and aliases of the section. -/
def SimpleNames (d : Options) : Prop :=
  ∀ x, x ∈ Dict.keys d ∨ x ∈ allValues d → ∀ c ∈ x, c ∉ ['^', '$', '*', '+', '?', '{', '}', '[', ']', '\\', '|', '(', ')']

/-! ### Selected options -/

/-- A flag of the section: its name, its type and its options. -/
structure Flag where
  name : Str
  type : Str
  options : List Str

/-- `d` declares the flags `fl`, in this order: the values of a key are the type, then the options; all values
obey the rules and no option belongs to two flags. -/
structure Declares (d : Options) (fl : List Flag) : Prop where
  names : fl.map Flag.name = Dict.keys d
  values : ∀ f ∈ fl, valuesIn d f.name = f.type :: f.options
  types : ∀ f ∈ fl, f.type = py!"SELECT_ONE" ∨ f.type = py!"SELECT_MANY"
  rules : AllAcceptable d
  distinct : (fl.flatMap Flag.options).Nodup

/-- The order of str: by code points, a proper beginning first. -/
inductive Before : Str → Str → Prop
  | nil {s} : Before [] s
  | lt {a b s t} : a.toNat < b.toNat → Before (a :: s) (b :: t)
  | eq {a s t} : Before s t → Before (a :: s) (a :: t)

/-- What is selected for a flag by the words of a build name: the only option among the words; the first option if
there is none; all of them in alphabetical order if there are several and the flag allows it. -/
inductive Selected (f : Flag) (words : List Str) : Sel → Prop
  | default {o rest} : f.options = o :: rest → (∀ x ∈ f.options, x ∉ words) → Selected f words (.one o)
  | one {o} : o ∈ f.options → o ∈ words → (∀ x ∈ f.options, x ∈ words → x = o) → Selected f words (.one o)
  | many {os} : f.type = py!"SELECT_MANY" → 2 ≤ os.length → os.Nodup → (∀ x, x ∈ os ↔ x ∈ f.options ∧ x ∈ words) →
      os.Pairwise Before → Selected f words (.many os)

/-- A flag that allows one option only, and two of its options among the words. -/
def Conflict (f : Flag) (words : List Str) : Prop :=
  f.type = py!"SELECT_ONE" ∧ ∃ x y, x ∈ f.options ∧ y ∈ f.options ∧ x ≠ y ∧ x ∈ words ∧ y ∈ words

/-- "_" and the option, for every selected option. -/
def selectionText (l : List (Str × Sel)) : Str :=
  l.flatMap fun p => match p.2 with
    | .one o => '_' :: o
    | .many os => os.flatMap fun o => '_' :: o

/-- What a client can do with a ConfigKeywordParser. -/
inductive CkpOp where
  | setBuildName (b : Str)
  | selectedOptions
  | selectedOptionsStr
  | isDefaultOption (o : Str)
  | allOptions

/-- The build name after a history that began with the build name `b`. -/
def buildAfter (b : Str) : List CkpOp → Str
  | [] => b
  | .setBuildName b' :: ops => buildAfter b' ops
  | _ :: ops => buildAfter b ops

/-- What it gets. -/
inductive CkpVal where
  | unit
  | sel (l : List (Str × Sel))
  | str (s : Str)
  | bool (b : Bool)
  | strs (l : List Str)
  deriving DecidableEq, Repr

/-! ### Systems -/

/-- The pattern in a key of supported-systems.ini: what stands before the first '#', '^' or blank. -/
def PatternIn (key p : Str) : Prop :=
  ∃ rest, key = p ++ rest ∧ (∀ c ∈ p, c ≠ '#' ∧ c ≠ '^' ∧ ¬ White c) ∧
    (rest = [] ∨ ∃ c r, rest = c :: r ∧ (c = '#' ∨ c = '^' ∨ White c))

/-- The pattern has no metacharacter but '.'. -/
def Plain (p : Str) : Prop := ∀ c ∈ p, c ∉ ['^', '$', '*', '+', '?', '{', '}', '[', ']', '\\', '|', '(', ')']

/-- The pattern is found in the text: somewhere in it for a plain pattern, as the regular expression engine says for
others. -/
def FoundIn (H : Host) (p text : Str) : Prop :=
  (Plain p ∧ ∃ a x b, text = a ++ x ++ b ∧ Fits p x) ∨ (¬ Plain p ∧ H.rx p text = .ok true)

/-- The host name belongs to the system `s` of the file: a pattern of its section is found in it. -/
def HostIs (E : Env Unit Unit) (H : Host) (s : Str) : Prop :=
  ∃ d k p, Resolved E s d ∧ k ∈ Dict.keys d ∧ PatternIn k p ∧ FoundIn H p H.hostname

/-- The first element with a property, if there is one. -/
def FirstOf (P : Str → Prop) (l : List Str) : Option Str → Prop
  | none => ∀ x ∈ l, ¬ P x
  | some x => ∃ pre post, l = pre ++ x :: post ∧ P x ∧ ∀ y ∈ pre, ¬ P y

/-- The systems of the file. -/
def Systems (E : Env Unit Unit) (s : Str) : Prop := s ∈ E.cfg.sectionNames ∧ s ≠ py!"DEFAULT"

/-- The systems in the order of the file. -/
def systemList (E : Env Unit Unit) : List Str := E.cfg.sectionNames.filter (· ≠ py!"DEFAULT")

/-- The system `s` is named in the build name. -/
def NamedIn (E : Env Unit Unit) (H : Host) (build s : Str) : Prop :=
  Systems E s ∧ s ∈ splitChar '_' (H.lower build)

end CPE.KW.Spec
