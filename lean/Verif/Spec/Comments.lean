import Verif.Spec.IniDoc
import Verif.Model.Object
/-
C90: texts that differ in comments, blank lines, blanks at the ends of lines and line ends only.
-/
namespace CPE.Spec

/-- A line with text in its first column that is no comment. -/
inductive FirstColumn : Str → Prop
  | mk {c t} : ¬ White c → c ≠ '#' → c ≠ ';' → FirstColumn (c :: t)

/-- No value goes on in these lines: there are none, or the first one has text in its first column. -/
inductive Ended : List Str → Prop
  | nil : Ended []
  | first {l ls} : FirstColumn l → Ended (l :: ls)

/-- The second list of lines is the first one with comments put in anywhere, blank lines where no value goes on, and
blanks at the ends of lines. -/
inductive Commented : List Str → List Str → Prop
  | nil : Commented [] []
  | same {l ls ls'} : Commented ls ls' → Commented (l :: ls) (l :: ls')
  | trail {l w ls ls'} : Blanks w → Commented ls ls' → Commented (l :: ls) ((l ++ w) :: ls')
  | comment {c ls ls'} : CommentLine c → Commented ls ls' → Commented ls (c :: ls')
  | blank {b ls ls'} : Blanks b → Ended ls → Commented ls ls' → Commented ls (b :: ls')

/-- Texts whose lines differ by comments and such blank lines and blanks; each text may end its lines with `\n` or `\r\n`. -/
def SameButComments (t t' : Str) : Prop :=
  ∃ ls ls', (∀ l ∈ ls, OneLine l) ∧ (∀ l ∈ ls', OneLine l) ∧ LinesOf ls t ∧ LinesOf ls' t' ∧ Commented ls ls'

/-- Disks with the same contents but for comments and such blank lines and blanks in files. -/
def DiskAlike (fs fs' : FS) : Prop :=
  ∀ p, fs p = fs' p ∨ ∃ t t', fs p = .file t ∧ fs' p = .file t' ∧ SameButComments t t'

/-- The same operations on disks that are alike at every moment. -/
inductive HistoryAlike {α : Type} : List (FS × α) → List (FS × α) → Prop
  | nil : HistoryAlike [] []
  | cons {fs fs' op H H'} : DiskAlike fs fs' → HistoryAlike H H' → HistoryAlike ((fs, op) :: H) ((fs', op) :: H')

end CPE.Spec
