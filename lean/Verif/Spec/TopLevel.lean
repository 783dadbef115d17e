import Verif.Model.Object
import Verif.Spec.Render
/-
Paths as texts, and what a top level file has to say about the files it names.
-/
namespace CPE.Spec

/-- `s` starts with a slash. -/
def IsAbs (s : Str) : Prop := ∃ r, s = '/' :: r

/-- The root of a path: empty for a relative path; `//` for exactly two leading slashes; otherwise `/`. -/
inductive Root : Str → Str → Prop
  | relative {s} : ¬ IsAbs s → Root s []
  | one {s} : ¬ IsAbs s → Root ('/' :: s) ['/']
  | two {s} : ¬ IsAbs s → Root ('/' :: '/' :: s) ['/', '/']
  | many {s} : Root ('/' :: '/' :: '/' :: s) ['/']

/-- The names in a path: what is between the slashes, without empty names and `.`. -/
def Names (s : Str) (ns : List Str) : Prop :=
  ∃ ps, ps ≠ [] ∧ joinStr ['/'] ps = s ∧ (∀ p ∈ ps, '/' ∉ p) ∧ ns = ps.filter fun p => p ≠ [] ∧ p ≠ ['.']

/-- The text of a path with this root and these names. -/
def pathText (root : Str) (names : List Str) : Str :=
  if root = [] ∧ names = [] then ['.'] else root ++ joinStr ['/'] names

/-- Path `s` is written `t` in normal form. -/
def Normal (s t : Str) : Prop := ∃ r ns, Root s r ∧ Names s ns ∧ t = pathText r ns

/-- The file that the value `v` in the file `ini` stands for: `v` itself if absolute, otherwise `v` below the directory
of `ini`. -/
def PointsTo (ini v q : Str) : Prop :=
  (IsAbs v ∧ q = v) ∨
  (¬ IsAbs v ∧ ∃ r ns vs, Root ini r ∧ Names ini ns ∧ Names v vs ∧ q = pathText r (ns.dropLast ++ vs))

/-- There is something at path `q`. -/
def There (fs : FS) (q : Str) : Prop := ∃ t, Normal q t ∧ fs t ≠ .absent

/-- Value `x` of an option is a path; if `must`, of something that is there. -/
def GoodPath (fs : FS) (ini : Str) (must : Bool) (x : Option (Option Str)) : Prop :=
  ∃ v q, x = some (some v) ∧ v ≠ [] ∧ PointsTo ini v q ∧ (must = true → There fs q)

/-- What gen-config.ini must have: sections, and options that name files. -/
def genConfigSections : List Str := [py!"gen-config", py!"load-env"]

/-- See `genConfigSections`. -/
def genConfigFiles : List (Str × Str) :=
  [(py!"gen-config", py!"supported-config-flags"), (py!"gen-config", py!"config-specs"),
   (py!"load-env", py!"supported-systems"), (py!"load-env", py!"supported-envs"),
   (py!"load-env", py!"environment-specs")]

/-- What load-env.ini must have. -/
def loadEnvSections : List Str := [py!"load-env"]

/-- See `loadEnvSections`. -/
def loadEnvFiles : List (Str × Str) :=
  [(py!"load-env", py!"supported-systems"), (py!"load-env", py!"supported-envs"),
   (py!"load-env", py!"environment-specs")]

/-- Each of these options of the sections of `E`'s file is a path, if `must` of something that is there. -/
def NamesFiles {δ ω : Type} (E : Env δ ω) (fs : FS) (ini : Str) (must : Bool) (wanted : List (Str × Str)) : Prop :=
  ∀ s k, (s, k) ∈ wanted → ∃ d, Resolved E s d ∧ GoodPath fs ini must (Dict.get? d k)

/-- A path from which the directory part can be taken any number of times: absolute, or without a directory. -/
def Anchored (ini : Str) : Prop := IsAbs ini ∨ ∃ ns, Names ini ns ∧ ns.length ≤ 1

/-- The file taken for an option: the one given on the command line, otherwise the resolved path of the value. -/
def Chosen {δ ω : Type} (E : Env δ ω) (ini : Str) (resolve : Str → Str) (given : Str × Str → Option Str) (s k a : Str) : Prop :=
  (∃ p, given (s, k) = some p ∧ a = p) ∨
  (given (s, k) = none ∧ ∃ d v q t, Resolved E s d ∧ Dict.get? d k = some (some v) ∧ PointsTo ini v q ∧ Normal q t ∧
    a = resolve t)

end CPE.Spec
