import Verif.Model.Messages
import Verif.Spec.Keywords
import Verif.Spec.Dispatch
/-
What the messages of the keyword tools look like (C64).
-/
namespace CPE.KW.Spec
open CPE CPE.Spec CPE.SetEnv

/-- A character that ends a line. -/
def Break (c : Char) : Prop := c.toNat ∈ [10, 11, 12, 13, 28, 29, 30, 0x85, 0x2028, 0x2029]

/-- A text on one line. -/
def OneLine (s : Str) : Prop := ∀ c ∈ s, ¬ Break c

/-- The end of a line: a single character, or a carriage return and a line feed. -/
def LineEnd (b : Str) : Prop := b = py!"\r\n" ∨ ∃ c, b = [c] ∧ Break c

/-- `Lines text ls`: the lines of a text. -/
inductive Lines : Str → List Str → Prop
  | none : Lines [] []
  | last {l} : l ≠ [] → OneLine l → Lines l [l]
  | line {l b s ls} : OneLine l → LineEnd b → ¬ (b = py!"\r" ∧ s.head? = some '\n') → Lines s ls → Lines (l ++ b ++ s) (l :: ls)

/-- `t` is `l` without the white space at its end. -/
def EndTrimmed (l t : Str) : Prop := ∃ w, l = t ++ w ∧ (∀ c ∈ w, White c) ∧ ∀ c, t.getLast? = some c → ¬ White c

/-- `Shown ls s`: `s` shows the lines `ls`, each without the white space at its end. -/
inductive Shown : List Str → Str → Prop
  | nil : Shown [] []
  | cons {l t ls s} : EndTrimmed l t → Shown ls s → Shown (l :: ls) (t ++ '\n' :: s)

/-- The frame above and below. -/
def frame : Str := '+' :: (List.replicate 78 '=' ++ ['+'])

/-- The lines of the message itself: the kind is before the first one, and the others are aligned with it (for a kind of five
letters). -/
inductive Headed (kind : Str) : List Str → List Str → Prop
  | none : Headed kind [] []
  | some {l ls} : Headed kind (l :: ls) ((py!"|   " ++ kind ++ py!":  " ++ l) :: ls.map (py!"|           " ++ ·))

/-- `Message ls kind es text`: `text` is the framed message with the lines `ls`, followed by the lines `es`. -/
def Message (ls : List Str) (kind : Str) (es : List Str) (text : Str) : Prop :=
  ∃ h s, Headed kind ls h ∧ Shown ([frame] ++ h ++ es.map (py!"|   " ++ ·) ++ [frame]) s ∧ text = '\n' :: s

/-- The lines that show a flag: its name, its type, and its options, the first of which is the default. -/
inductive FlagShown (f : Flag) : List Str → Prop
  | none : f.options = [] → FlagShown f [py!"  - " ++ f.name, py!"    * Option (" ++ f.type ++ py!"):"]
  | some {o os} : f.options = o :: os → FlagShown f
      ([py!"  - " ++ f.name, py!"    * Options (" ++ f.type ++ py!"):", py!"      - " ++ o ++ py!" (default)"] ++
        os.map (py!"      - " ++ ·))

/-- The lines that show the flags, one after the other. -/
inductive FlagsShown : List Flag → List Str → Prop
  | nil : FlagsShown [] []
  | cons {f fl a b} : FlagShown f a → FlagsShown fl b → FlagsShown (f :: fl) (a ++ b)

/-- `d` declares the flags `fl`: as `Declares`, but an option may belong to several flags. -/
structure Lists (d : Options) (fl : List Flag) : Prop where
  names : fl.map Flag.name = Dict.keys d
  values : ∀ f ∈ fl, valuesIn d f.name = f.type :: f.options
  types : ∀ f ∈ fl, f.type = py!"SELECT_ONE" ∨ f.type = py!"SELECT_MANY"
  rules : AllAcceptable d

/-- A flag whose name and options are each on one line. -/
def FlagOnLines (f : Flag) : Prop := OneLine f.name ∧ ∀ o ∈ f.options, OneLine o

/-- `l'` is `l` in alphabetical order. -/
def InOrder (l l' : List Str) : Prop := List.Perm l' l ∧ l'.Pairwise Before

/-- The lines that show an environment: its name, and its aliases in alphabetical order. -/
inductive EnvShown (d : Options) (e : Str) : List Str → Prop
  | none : valuesIn d e = [] → EnvShown d e [py!"  - " ++ e]
  | some {al} : valuesIn d e ≠ [] → InOrder (valuesIn d e) al →
      EnvShown d e ([py!"  - " ++ e, py!"    * Aliases:"] ++ al.map (py!"      - " ++ ·))

/-- The lines that show environments, one after the other. -/
inductive EnvsShown (d : Options) : List Str → List Str → Prop
  | nil : EnvsShown d [] []
  | cons {e es a b} : EnvShown d e a → EnvsShown d es b → EnvsShown d (e :: es) (a ++ b)

end CPE.KW.Spec
