import Verif.Model.GenOutput
import Verif.Spec.GenConfig
/-
What GenConfig is expected to write (C63).
-/
namespace CPE.KW.Spec
open CPE CPE.Spec CPE.SetEnv

/-- `Target T b f c`: the configuration whose options are asked for: every checked section of config-specs.ini has its
canonical name, and the build name asks for `c`. -/
def Target (T : Tool) (b : Str) (f : Bool) (c : Str) : Prop :=
  (∀ s, Checked T s → ConfigIs T s true s) ∧ ConfigIs T b f c

/-- `Reply input r rest`: the answer to the question whether to overwrite a file, from the lines that are typed: the
first line that starts with y or n counts; an empty line before that is an IndexError, the end of the input an
EOFError. -/
inductive Reply : List Str → Out Bool → List Str → Prop
  | yes {c t rs} : c = 'y' ∨ c = 'Y' → Reply ((c :: t) :: rs) (.ok true) rs
  | no {c t rs} : c = 'n' ∨ c = 'N' → Reply ((c :: t) :: rs) (.ok false) rs
  | again {c t rs r rest} : c ∉ ['y', 'Y', 'n', 'N'] → Reply rs r rest → Reply ((c :: t) :: rs) r rest
  | empty {rs} : Reply ([] :: rs) (.exc .indexError) rs
  | ended : Reply [] (.exc (.user py!"EOFError")) []

/-- `Separated sep ws t`: `t` is the texts `ws` with `sep` between them. -/
inductive Separated (sep : Str) : List Str → Str → Prop
  | none : Separated sep [] []
  | one {w} : Separated sep [w] w
  | more {w ws t} : ws ≠ [] → Separated sep ws t → Separated sep (w :: ws) (w ++ sep ++ t)

/-- The file `file` now has the text `text`, and nothing else changed. -/
def OnlyChanged (files files' : Dict Str Str) (file text : Str) : Prop :=
  Dict.get? files' file = some text ∧ ∀ q, q ≠ file → Dict.get? files' q = Dict.get? files q

/-- `Writing file text yes files input r files' input'`: what happens when a fragment with the given text is to be written, from the
files and the typed lines before to those after it. -/
inductive Writing (file text : Str) (yes : Bool) (files : Dict Str Str) : List Str → Out Str → Dict Str Str → List Str → Prop
  | fresh {input files'} : Dict.get? files file = none → OnlyChanged files files' file text →
      Writing file text yes files input (.ok file) files' input
  | unasked {input files' old} : Dict.get? files file = some old → yes = true → OnlyChanged files files' file text →
      Writing file text yes files input (.ok file) files' input
  | agreed {input files' old rest} : Dict.get? files file = some old → yes = false → Reply input (.ok true) rest →
      OnlyChanged files files' file text → Writing file text yes files input (.ok file) files' rest
  | refused {input old rest} : Dict.get? files file = some old → yes = false → Reply input (.ok false) rest →
      Writing file text yes files input (.exc .systemExit) files rest
  | unanswered {input old rest e} : Dict.get? files file = some old → yes = false → Reply input (.exc e) rest →
      Writing file text yes files input (.exc e) files rest

/-- What a client can do with a GenConfig object. -/
inductive JobOp where
  | names (op : GcOp)
  | flags
  | fragment
  | disk (files : Dict Str Str)

/-- Run an operation; `disk` is something else changing the files. -/
def JobOp.exec (W : GenSite) : JobOp → M Job GcVal
  | .names op => Job.onGc (GcOp.exec W.tool op)
  | .flags => do let s ← Job.flagsStr W; pure (.str s)
  | .fragment => do let s ← Job.writeFragment W; pure (.str s)
  | .disk files => do M.modify fun j => { j with files := files }; pure .unit

/-- Run a history, whatever the outcomes. -/
def JobOp.run (W : GenSite) : List JobOp → Job → Job
  | [], j => j
  | op :: ops, j => JobOp.run W ops (JobOp.exec W op j).2

/-- In the history a fragment has been written. -/
def JobOp.Wrote (W : GenSite) (ops : List JobOp) (j : Job) : Prop :=
  ∃ pre post v, ops = pre ++ .fragment :: post ∧ (JobOp.exec W .fragment (JobOp.run W pre j)).1 = .ok v

/-- The words of a text for the shell: what is between blanks, tabs and line ends (quotes and backslashes mean nothing in
the value of a variable; the replacement of patterns by file names is left out). -/
inductive ShellWords : Str → List Str → Prop
  | nil : ShellWords [] []
  | space {c s ws} : c ∈ [' ', '\t', '\n'] → ShellWords s ws → ShellWords (c :: s) ws
  | word {w s ws} : w ≠ [] → (∀ c ∈ w, c ∉ [' ', '\t', '\n']) → (∀ c ∈ s.head?, c ∈ [' ', '\t', '\n']) → ShellWords s ws →
      ShellWords (w ++ s) (w :: ws)

/-- A text that the shell takes as one word. -/
def OneWord (w : Str) : Prop := w ≠ [] ∧ ∀ c ∈ w, c ∉ [' ', '\t', '\n']

/-- The list with `x` between its elements. -/
inductive Between (x : Str) : List Str → List Str → Prop
  | none : Between x [] []
  | one {w} : Between x [w] [w]
  | more {w ws l} : ws ≠ [] → Between x ws l → Between x (w :: ws) (w :: x :: l)

/-- The files of LoadEnv and the options that are passed on to it. -/
def LoadEnvCall (A : GenArgs) (l : List Str) : Prop :=
  ∃ flags, (∀ x ∈ flags, x = py!"--force" ∨ x = py!"--ci-mode") ∧ flags.Nodup ∧
    (py!"--force" ∈ flags ↔ A.force = true) ∧ (py!"--ci-mode" ∈ flags ↔ A.ciMode = true) ∧
    l = py!"--supported-systems" :: A.systemsFile :: py!"--supported-envs" :: A.envsFile ::
      py!"--environment-specs" :: A.specsFile :: (flags ++ [A.build])

end CPE.KW.Spec
