import Verif.Spec.SetEnvironment
/-
Specification for texts that Python reads in a double-quoted literal: what a text stands for between the quotes (Python
Language Reference, "String and Bytes literals", table of escape sequences).
-/
namespace CPE.SetEnv.Spec
open CPE.Spec

/-- `c` is the digit for `d` to a base up to 16. -/
def Digit (base : Nat) (c : Char) (d : Nat) : Prop :=
  d < base ∧ ((py!"0123456789abcdef")[d]? = some c ∨ (py!"0123456789ABCDEF")[d]? = some c)

/-- `ds` are the digits of `n`. -/
inductive Number (base : Nat) : Str → Nat → Prop
  | nil : Number base [] 0
  | snoc {ds n c d} : Number base ds n → Digit base c d → Number base (ds ++ [c]) (n * base + d)

/-- Escapes of one character. -/
def oneCharEscapes : List (Char × Char) :=
  [('\\', '\\'), ('\'', '\''), ('"', '"'), ('a', '\u0007'), ('b', '\u0008'), ('f', '\u000C'), ('n', '\n'), ('r', '\r'), ('t', '\t'),
   ('v', '\u000B')]

/-- Escapes by number: how many digits there have to be. -/
def hexEscapes : List (Char × Nat) := [('x', 2), ('u', 4), ('U', 8)]

/-- Characters that mean something after a backslash. -/
def escaping : Str := py!"\n\r\\'\"abfnrtv01234567xuUN\u0000"

/-- `Piece p x t`: in a text that goes on with `t`, the characters `p` stand for `x`. -/
inductive Piece : Str → Str → Str → Prop
  | char {c t} : c ∉ py!"\"\\\n\r\u0000" → Piece [c] [c] t
  | lineEnd {e t} : e ∈ [py!"\n", py!"\r\n"] → Piece ('\\' :: e) [] t
  | oldLineEnd {t} : t.head? ≠ some '\n' → Piece py!"\\\r" [] t
  | one {c d t} : (c, d) ∈ oneCharEscapes → Piece ['\\', c] [d] t
  | octal {ds n t} : Number 8 ds n → ds ≠ [] → ds.length ≤ 3 →
      (ds.length = 3 ∨ ∀ c d, t.head? = some c → ¬ Digit 8 c d) → Piece ('\\' :: ds) [Char.ofNat n] t
  | hex {c k ds n t} : (c, k) ∈ hexEscapes → Number 16 ds n → ds.length = k → n.isValidChar →
      Piece ('\\' :: c :: ds) [Char.ofNat n] t
  | unknown {c t} : c ∉ escaping → Piece ['\\', c] ['\\', c] t

/-- Between quotes, the text stands for `x`. -/
inductive Literal : Str → Str → Prop
  | nil : Literal [] []
  | cons {p x t y} : Piece p x t → Literal t y → Literal (p ++ t) (x ++ y)

/-- Python stops here: a line end, or an escape by number without a (possible) number. -/
inductive Bad : Str → Prop
  | lineEnd {c t} : c ∈ ['\n', '\r'] → Bad (c :: t)
  | short {c k t} : (c, k) ∈ hexEscapes → (∀ ds n, ds <+: t → ds.length = k → ¬ Number 16 ds n) → Bad ('\\' :: c :: t)
  | big {ds n t} : Number 16 ds n → ds.length = 8 → 0x10FFFF < n → Bad ('\\' :: 'U' :: (ds ++ t))

/-- Between quotes, the text is an error. -/
inductive Broken : Str → Prop
  | here {t} : Bad t → Broken t
  | later {p x t} : Piece p x t → Broken t → Broken (p ++ t)

/-- The text ends with a backslash that takes the closing quote. -/
inductive Dangling : Str → Prop
  | here : Dangling ['\\']
  | later {p x t} : Piece p x t → Dangling t → Dangling (p ++ t)

/-- Texts that this specification speaks about: no quote (it would end the literal), no NUL, no character by name, no
surrogate. -/
def Covered (w : Str) : Prop :=
  '"' ∉ w ∧ Char.ofNat 0 ∉ w ∧ ¬ py!"\\N" <:+: w ∧
  ∀ c k ds n, (c, k) ∈ hexEscapes → Number 16 ds n → 0xD800 ≤ n → n ≤ 0xDFFF → ¬ ('\\' :: c :: ds) <:+: w

/-- How to write a character so that Python reads it. -/
def written (c : Char) : Str :=
  if c = '"' then py!"\\\"" else if c = '\\' then py!"\\\\" else if c = '\n' then py!"\\n" else if c = '\r' then py!"\\r"
  else if c = Char.ofNat 0 then py!"\\x00" else [c]

/-- Words, and what they stand for. -/
inductive Literals : List Str → List Str → Prop
  | nil : Literals [] []
  | cons {w x ws xs} : Literal w x → Literals ws xs → Literals (w :: ws) (x :: xs)

/-- The first word that is not a literal is an error. -/
inductive Erroneous : List Str → Prop
  | broken {w ws} : Broken w → Erroneous (w :: ws)
  | dangling {w} : Dangling w → Erroneous [w]
  | later {w x ws} : Literal w x → Erroneous ws → Erroneous (w :: ws)

/-- `Calls a f ws`: action `a` is a call of the function `f` with the words `ws` in quotes. -/
inductive Calls : Action → Str → List Str → Prop
  | envvar {a ws} : EnvvarWords a ws → Calls a py!"envvar_op" ws
  | module {a ws} : ModuleWords a ws → Calls a py!"ModuleHelper.module" ws

/-- `Performs sys a m`: to perform action `a`, as Python reads its words, is to run `m` on the environment. -/
inductive Performs (sys : Sys) : Action → M Environ Int → Prop
  | unset {a n x} : EnvvarWords a [py!"unset", n] → Literal n x → Performs sys a (envvarOp sys py!"unset" x [] true)
  | envvar {a op n v x y} : EnvvarWords a [op, n, v] → Literal n x → Literal v y → Performs sys a (envvarOp sys op x y true)
  | module {a ws xs} : ModuleWords a ws → Literals ws xs → Performs sys a (sys.module xs)
  | incomplete {a} : Incomplete a → Performs sys a fun e => (.exc .typeError, e)
  | erroneous {a f ws} : Calls a f ws → Erroneous ws → Performs sys a fun e => (.exc (.user py!"SyntaxError"), e)

/-- `Performing sys l ms`: to perform the actions `l` is to run `ms`, one for one. -/
inductive Performing (sys : Sys) : List Action → List (M Environ Int) → Prop
  | nil : Performing sys [] []
  | cons {a m as ms} : Performs sys a m → Performing sys as ms → Performing sys (a :: as) (m :: ms)

/-- An action that Python can read. -/
def Legible (a : Action) : Prop := ∃ f ws xs, Calls a f ws ∧ Literals ws xs

/-- An action that Python cannot read. -/
def Illegible (a : Action) : Prop := ∃ f ws, Calls a f ws ∧ Erroneous ws

end CPE.SetEnv.Spec
