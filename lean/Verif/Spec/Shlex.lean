import Verif.Model.Shlex
/-
Shell-like words, as a grammar. Only the character classes `isShWs` (blank, tab, CR, LF) and `isQuote`
(single and double quote) are taken from the model.
-/
namespace CPE.Spec

/-- The inside of double quotes and what it stands for: a backslash protects `"` and `\`, and is kept
before anything else. -/
inductive DoubleQuoted : Str → Str → Prop
  | nil : DoubleQuoted [] []
  | char {c s x} : c ≠ '"' → c ≠ '\\' → DoubleQuoted s x → DoubleQuoted (c :: s) (c :: x)
  | protect {c s x} : c = '"' ∨ c = '\\' → DoubleQuoted s x → DoubleQuoted ('\\' :: c :: s) (c :: x)
  | keep {c s x} : c ≠ '"' → c ≠ '\\' → DoubleQuoted s x → DoubleQuoted ('\\' :: c :: s) ('\\' :: c :: x)

/-- A piece of a word and what it stands for. -/
inductive Piece : Str → Str → Prop
  | bare {c} : c ≠ ' ' → c ≠ '\t' → c ≠ '\r' → c ≠ '\n' → c ≠ '\'' → c ≠ '"' → c ≠ '\\' → Piece [c] [c]
  | escaped {c} : Piece ['\\', c] [c]
  | single {x} : '\'' ∉ x → Piece ('\'' :: x ++ ['\'']) x
  | double {s x} : DoubleQuoted s x → Piece ('"' :: s ++ ['"']) x

/-- Zero or more pieces. -/
inductive Pieces : Str → Str → Prop
  | nil : Pieces [] []
  | cons {p x s y} : Piece p x → Pieces s y → Pieces (p ++ s) (x ++ y)

/-- Only blanks. -/
def Blank (s : Str) : Prop := ∀ c ∈ s, c = ' ' ∨ c = '\t' ∨ c = '\r' ∨ c = '\n'

/-- Empty, or starting with a blank. -/
def AtBlank (s : Str) : Prop := s = [] ∨ ∃ c r, s = c :: r ∧ (c = ' ' ∨ c = '\t' ∨ c = '\r' ∨ c = '\n')

/-- Blank-separated words. -/
inductive Words : Str → List Str → Prop
  | nil {s} : Blank s → Words s []
  | cons {b p x s y r ws} : Blank b → Piece p x → Pieces s y → AtBlank r → Words r ws →
      Words (b ++ p ++ s ++ r) ((x ++ y) :: ws)

end CPE.Spec
