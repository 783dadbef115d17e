import Verif.Spec.IniDoc
import Verif.Spec.Resolve
/-
What `unroll_to_str` should write: a text made from sections with their resolved options, and when it should raise.
-/
namespace CPE.Spec

/-- `key : value` (or `key:value`) without blanks at the ends; None counts as empty. -/
def renderOption (space : Bool) (o : Str × Option Str) : Str :=
  strip (o.1 ++ (if space then py!" : " else py!":") ++ o.2.getD []) ++ py!"\n"

/-- A header line and the lines of the options. -/
def renderSection (space : Bool) (b : Str × Options) : Str :=
  py!"[" ++ b.1 ++ py!"]\n" ++ (b.2.map (renderOption space)).flatten

/-- The sections with an empty line between them. -/
def render (space : Bool) : List (Str × Options) → Str
  | [] => py!"\n"
  | [b] => renderSection space b
  | b :: bs => renderSection space b ++ py!"\n" ++ render space bs

variable {δ ω : Type}

/-- An event at which a parse must stop at any exception level. -/
inductive Fault : Ev δ ω → PyExc → Prop
  | fail (e) : Fault (.fail e) e
  | missing (s) : Fault (.missing s) .keyError

/-- The first fault in the unrolling of section `s` is `e`. -/
def Faults (E : Env δ ω) (s : Str) (e : PyExc) : Prop :=
  ∃ a ev b, ParseTrace E s true true (a ++ ev :: b) ∧ Fault ev e ∧ ∀ x ∈ a, ∀ e', ¬ Fault x e'

/-- No fault in the unrolling of section `s`. -/
def Sound (E : Env δ ω) (s : Str) : Prop := ∃ evs, ParseTrace E s true true evs ∧ ∀ x ∈ evs, ∀ e', ¬ Fault x e'

/-- A value that can be written on one line and read back. -/
def PlainValue (v : Str) : Prop := OneLine v ∧ Tight v ∧ '%' ∉ v

/-- Options that can be written one per line and read back. -/
def PlainOptions (d : Options) : Prop :=
  ∀ kv ∈ d, OneLine kv.1 ∧ (∀ c ∈ kv.1, c ≠ '=' ∧ c ≠ ':') ∧ (∀ c, kv.1.head? = some c → c ≠ '#' ∧ c ≠ ';' ∧ c ≠ '[') ∧
    PlainValue (kv.2.getD [])

/-- None replaced by the empty string. -/
def fillIn (d : Options) : Options := d.map fun kv => (kv.1, some (kv.2.getD []))

end CPE.Spec
