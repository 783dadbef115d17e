import Verif.Spec.Resolve
/-
Specification for changing the order or number of the options of a section.
-/
namespace CPE.Spec
variable {δ ω : Type}

/-- The file `c'` is the file of `E`, but section `s` has the options `new` in place of `old`; what is read for an option that is
in both files is the same. -/
structure Edited (E : Env δ ω) (c' : Cfg) (s : Str) (old new : List Str) : Prop where
  before : E.cfg.optionNames s = some old
  after : c'.optionNames s = some new
  others : ∀ x, x ≠ s → c'.optionNames x = E.cfg.optionNames x
  values : ∀ x keys k, c'.optionNames x = some keys → k ∈ keys → c'.value x k = E.cfg.value x k
  default : c'.hasSection E.defaultName = E.cfg.hasSection E.defaultName

/-- The option `key` of section `s` may write `k`: it is an option `k` that no handler takes, or it uses a section from which such
an option can be reached. -/
def Writes (E : Env δ ω) (s key k : Str) : Prop :=
  (∃ v, meaning E s s key = .events [.store k v]) ∨
  ∃ w t, meaning E s s key = .link w ∧ Reaches E w t ∧ HasUnhandled E t k

end CPE.Spec
