import Verif.Spec.Dispatch
/-
What an `.ini` text says. A document is a list of sections, each with its options in the order of the text; a
grammar relates it to the lines of the text; the configuration it stands for is read off the document.
-/
namespace CPE.Spec

/-- Blanks within a line. -/
def Blanks (w : Str) : Prop := ∀ c ∈ w, White c ∧ c ≠ '\n' ∧ c ≠ '\r'

/-- No line end inside. -/
def OneLine (t : Str) : Prop := '\n' ∉ t ∧ '\r' ∉ t

/-- No blank at either end. -/
def Tight (t : Str) : Prop := (∀ c, t.head? = some c → ¬ White c) ∧ (∀ c, t.getLast? = some c → ¬ White c)

/-- The lines of a text: ended by `\n` or `\r\n`, except that the last one may lack its end. -/
inductive LinesOf : List Str → Str → Prop
  | nil : LinesOf [] []
  | last {l} : l ≠ [] → LinesOf [l] l
  | unix {l ls t} : LinesOf ls t → LinesOf (l :: ls) (l ++ '\n' :: t)
  | dos {l ls t} : LinesOf ls t → LinesOf (l :: ls) (l ++ '\r' :: '\n' :: t)

/-- A comment: `#` or `;` after blanks. -/
inductive CommentLine : Str → Prop
  | mk {w c t} : Blanks w → c = '#' ∨ c = ';' → OneLine t → CommentLine (w ++ c :: t)

/-- A line that says nothing. -/
def SkipLine (l : Str) : Prop := CommentLine l ∨ Blanks l

/-- A section header at the beginning of a line; whatever follows the last bracket is ignored. -/
inductive HeaderLine : Str → Str → Prop
  | mk {name junk} : name ≠ [] → OneLine name → OneLine junk → ']' ∉ junk → HeaderLine name ('[' :: name ++ ']' :: junk)

/-- What can be the key of an option when `ds` are the delimiters. -/
structure GoodKey (ds : List Char) (k : Str) : Prop where
  nonempty : k ≠ []
  tight : Tight k
  oneLine : OneLine k
  free : ∀ c ∈ k, c ∉ ds
  first : ∀ c, k.head? = some c → c ≠ '#' ∧ c ≠ ';' ∧ c ≠ '['

/-- An option line with `i` blanks before the key: key, delimiter, value, with any blanks between; or only a key. -/
inductive OptionLine (ds : List Char) (i : Nat) : Str → Str → Option Str → Prop
  | value {w k a d b v e} : Blanks w → w.length = i → GoodKey ds k → Blanks a → d ∈ ds → Blanks b → Tight v → OneLine v →
      Blanks e → OptionLine ds i (w ++ k ++ a ++ d :: b ++ v ++ e) k (some v)
  | bare {w k e} : Blanks w → w.length = i → GoodKey ds k → Blanks e → OptionLine ds i (w ++ k ++ e) k none

/-- The lines after an option line with a value: comments, empty lines, and lines indented deeper, which continue it. -/
inductive MoreLines (i : Nat) : List Str → List Str → Prop
  | nil : MoreLines i [] []
  | comment {l ls vs} : CommentLine l → MoreLines i ls vs → MoreLines i (l :: ls) vs
  | blank {l ls vs} : Blanks l → MoreLines i ls vs → MoreLines i (l :: ls) ([] :: vs)
  | text {w t e ls vs} : Blanks w → i < w.length → t ≠ [] → Tight t → OneLine t →
      (∀ c, t.head? = some c → c ≠ '#' ∧ c ≠ ';') → Blanks e → MoreLines i ls vs → MoreLines i ((w ++ t ++ e) :: ls) (t :: vs)

/-- An option of a document: its key, and the lines of its value (None if there is no delimiter). -/
abbrev DocOption := Str × Option (List Str)

/-- A document. -/
abbrev Doc := List (Str × List DocOption)

/-- The lines of one option. -/
inductive OptionText (ds : List Char) (i : Nat) : List Str → DocOption → Prop
  | value {l k v ls vs} : OptionLine ds i l k (some v) → MoreLines i ls vs → OptionText ds i (l :: ls) (k, some (v :: vs))
  | bare {l k ls} : OptionLine ds i l k none → (∀ x ∈ ls, SkipLine x) → OptionText ds i (l :: ls) (k, none)

/-- The lines of the options of a section, all equally indented. -/
inductive BodyText (ds : List Char) (i : Nat) : List Str → List DocOption → Prop
  | nil : BodyText ds i [] []
  | cons {ls ls' o os} : OptionText ds i ls o → BodyText ds i ls' os → BodyText ds i (ls ++ ls') (o :: os)

/-- The lines of a document from its first header on. -/
inductive SectionsText (ds : List Char) : List Str → Doc → Prop
  | nil : SectionsText ds [] []
  | cons {h name skip i ls os ls' doc} : HeaderLine name h → (∀ x ∈ skip, SkipLine x) → BodyText ds i ls os →
      SectionsText ds ls' doc → SectionsText ds (h :: skip ++ ls ++ ls') ((name, os) :: doc)

/-- A text written with the delimiters `ds` that says `doc`. -/
def Says (ds : List Char) (text : Str) (doc : Doc) : Prop :=
  ∃ skip ls, (∀ x ∈ skip, SkipLine x) ∧ SectionsText ds ls doc ∧ LinesOf (skip ++ ls) text

/-- No section header is repeated, and no key within a section. -/
def Doc.Strict (doc : Doc) : Prop := (doc.map Prod.fst).Nodup ∧ ∀ x ∈ doc, (x.2.map Prod.fst).Nodup

/-- Without the empty lines at the end. -/
def dropEmpty : List Str → List Str
  | [] => []
  | l :: ls => if l = [] ∧ dropEmpty ls = [] then [] else l :: dropEmpty ls

/-- Lines joined by line ends. -/
def joinNL : List Str → Str
  | [] => []
  | [l] => l
  | l :: ls => l ++ '\n' :: joinNL ls

/-- The value of an option. -/
def docValue (o : DocOption) : Str × Option Str := (o.1, o.2.map fun ls => joinNL (dropEmpty ls))

/-- The configuration a document stands for, for a parser whose common section has the given name. -/
def Doc.cfg (commonName : Str) (doc : Doc) : Cfg where
  sections := (doc.filter fun x => x.1 ≠ commonName).map fun x => (x.1, x.2.map docValue)
  common := ((doc.find? fun x => x.1 = commonName).map fun x => x.2.map docValue).getD []
  commonName := commonName

/-- Options written over a dict, in order. -/
def setAll (d : Dict Str (Option Str)) (os : List DocOption) : Dict Str (Option Str) :=
  os.foldl (fun d o => Dict.set d (docValue o).1 (docValue o).2) d

/-- A document read on top of a configuration. -/
def Doc.onto (doc : Doc) (c : Cfg) : Cfg :=
  doc.foldl (fun c x =>
    if x.1 = c.commonName then { c with common := setAll c.common x.2 }
    else { c with sections := Dict.set c.sections x.1 (setAll ((Dict.get? c.sections x.1).getD []) x.2) }) c

end CPE.Spec
