import Verif.Model.Config
import Verif.Spec.IniDoc
import Verif.Spec.Interpolation
import Verif.Spec.Dispatch
/-
What a user of the base class gets from a configuration, read off the options directly: no events, no parser.
-/
namespace CPE.Spec

/-- The options of a section in the order in which they are met: its own, then those of the common section that it does
not define itself. -/
def BodyOf (c : Cfg) (s : Str) (os : List (Str × Option Str)) : Prop :=
  (s = c.commonName ∧ os = c.common) ∨
  (s ≠ c.commonName ∧ ∃ own, (s, own) ∈ c.sections ∧
    os = own ++ c.common.filter fun kv => decide (kv.1 ∉ own.map Prod.fst))

/-- `ShownAs c s v u`: the value `v` written in section `s` is shown as `u`: references are replaced, then white space
and then double quotes at the ends are removed. -/
inductive ShownAs (c : Cfg) (s : Str) : Option Str → Option Str → Prop
  | none : ShownAs c s none none
  | text {v x u} : Expands (c.rawValue s) 10 v x → Cleaned (some x) u → ShownAs c s (some v) u

/-- The first word of a key. -/
def Begins (k w : Str) : Prop := ∃ ws, Words k (w :: ws)

/-- `Gathers c ok path s os ws`: the options `os` of section `s`, with each `use T` replaced in place by what section
`T` gives, are the list `ws`. A `use` of a section of `path`, which is being gathered already, gives nothing. Only
sections `ok` are entered. The names `initialize` and `finalize` are taken by the two hooks. -/
inductive Gathers (c : Cfg) (ok : Str → Prop) : List Str → Str → List (Str × Option Str) → List (Str × Option Str) → Prop
  | nil {path s} : Gathers c ok path s [] []
  | own {path s k v w u os ws} : Tight k → Begins k w → w ≠ py!"use" → w ≠ py!"initialize" → w ≠ py!"finalize" →
      ShownAs c s v u → Gathers c ok path s os ws → Gathers c ok path s ((k, v) :: os) ((k, u) :: ws)
  | hook {path s k v w u os ws} : Tight k → Begins k w → w = py!"initialize" ∨ w = py!"finalize" →
      ShownAs c s v u → Gathers c ok path s os ws → Gathers c ok path s ((k, v) :: os) ws
  | use {path s k v t more u os os' ws ws'} : Tight k → Words k (py!"use" :: t :: more) → ShownAs c s v u →
      t ∉ path → ok t → BodyOf c t os' → Gathers c ok (t :: path) t os' ws' → Gathers c ok path s os ws →
      Gathers c ok path s ((k, v) :: os) (ws' ++ ws)
  | again {path s k v t more u os ws} : Tight k → Words k (py!"use" :: t :: more) → ShownAs c s v u →
      t ∈ path → Gathers c ok path s os ws → Gathers c ok path s ((k, v) :: os) ws

/-- What is gathered before section `s`: the section DEFAULT, if there is one. It must not use `s`. -/
def Prelude (c : Cfg) (s : Str) (ws : List (Str × Option Str)) : Prop :=
  (py!"DEFAULT" ∉ c.sections.map Prod.fst ∧ ws = []) ∨
  (py!"DEFAULT" ∈ c.sections.map Prod.fst ∧ ∃ os, BodyOf c py!"DEFAULT" os ∧
    Gathers c (fun t => s = py!"DEFAULT" ∨ t ≠ s) [py!"DEFAULT"] py!"DEFAULT" os ws)

/-- `Breaks c path s os`: somewhere along the same way, before anything else goes wrong, a section is used that does
not exist. -/
inductive Breaks (c : Cfg) : List Str → Str → List (Str × Option Str) → Prop
  | here {path s k v t more u os} : Tight k → Words k (py!"use" :: t :: more) → ShownAs c s v u → t ∉ path →
      (∀ os', ¬ BodyOf c t os') → Breaks c path s ((k, v) :: os)
  | inside {path s k v t more u os os'} : Tight k → Words k (py!"use" :: t :: more) → ShownAs c s v u → t ∉ path →
      BodyOf c t os' → Breaks c (t :: path) t os' → Breaks c path s ((k, v) :: os)
  | later {path s o os ws} : Gathers c (fun _ => True) path s [o] ws → Breaks c path s os → Breaks c path s (o :: os)

end CPE.Spec
