import Verif.Spec.Resolve
import Verif.Spec.Shlex
/-
Which handler an option belongs to, in terms of the words of its key and the methods of the class.
-/
namespace CPE.Spec
variable {δ ω : Type}

/-- The characters removed by `str.strip()`, as a list of code points. -/
def White (c : Char) : Prop :=
  c.toNat ∈ [9, 10, 11, 12, 13, 28, 29, 30, 31, 32, 0x85, 0xA0, 0x1680, 0x2000, 0x2001, 0x2002, 0x2003, 0x2004, 0x2005,
    0x2006, 0x2007, 0x2008, 0x2009, 0x200A, 0x2028, 0x2029, 0x202F, 0x205F, 0x3000]

/-- `t` is `s` without the characters of class `p` at both ends. -/
def Trimmed (p : Char → Prop) (s t : Str) : Prop :=
  ∃ a b, s = a ++ t ++ b ∧ (∀ c ∈ a, p c) ∧ (∀ c ∈ b, p c) ∧
    (∀ c, t.head? = some c → ¬ p c) ∧ (∀ c, t.getLast? = some c → ¬ p c)

/-- How a raw value is shown: None stays None, a text loses surrounding blanks, then surrounding double quotes. -/
inductive Cleaned : Option Str → Option Str → Prop
  | none : Cleaned none none
  | text {x y z} : Trimmed White x y → Trimmed (· = '"') y z → Cleaned (some x) (some z)

/-- The class has a method `handler_<op>` (the two hooks always exist). -/
def HasPublic (E : Env δ ω) (op : Str) : Prop := op = py!"initialize" ∨ op = py!"finalize" ∨ E.pub op ≠ none

/-- The class has a method `_handler_<op>`. -/
def HasPrivate (E : Env δ ω) (op : Str) : Prop := E.priv op ≠ none

/-- The key `k` (stripped) starts with the operation `op`, given as a word of `[\w-]`, followed by `params`. -/
def Operates (k op : Str) (params : List Str) : Prop := ∃ w, Words k (w :: params) ∧ OpWord w ∧ op = opName w

/-- No handler takes an option with key `k`: its first word cannot name an operation, or there is no method. -/
def Unclaimed (E : Env δ ω) (k : Str) : Prop :=
  ∃ w ps, Words k (w :: ps) ∧ (¬ OpWord w ∨ (¬ HasPublic E (opName w) ∧ ¬ HasPrivate E (opName w)))

end CPE.Spec
