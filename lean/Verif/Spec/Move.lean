import Verif.Spec.Resolve
/-
Specification for moving options of a section into a section of their own: what the new file has.
-/
namespace CPE.Spec
variable {δ ω : Type}

/-- The file `c'` is the file of `E` with the options `m` of section `s` moved to a new section `t`, and an option `u` that uses
`t` in their place. (The options before are `a`, those behind `z`.) The new name `t` is not used before. Values that are read are
the same: the options moved do not refer by `%(...)s` to options that stayed, nor the other way round. -/
structure Moved (E : Env δ ω) (c' : Cfg) (s t u : Str) (a m z : List Str) : Prop where
  /-- The section had the options. -/
  before : E.cfg.optionNames s = some (a ++ m ++ z)
  /-- Now it has `u` in their place, -/
  after : c'.optionNames s = some (a ++ u :: z)
  /-- which is a `use` of the new section, -/
  link : ∀ root, meaning { E with cfg := c' } root s u = .link t
  /-- which has the options that were moved, -/
  moved : c'.optionNames t = some m
  /-- and did not exist -/
  new : E.cfg.optionNames t = none
  /-- and was not mentioned. -/
  unused : ∀ x, ¬ Links E x t
  /-- The other sections are what they were. -/
  others : ∀ x, x ≠ s → x ≠ t → c'.optionNames x = E.cfg.optionNames x ∧
    ∀ keys, E.cfg.optionNames x = some keys → ∀ k ∈ keys, c'.value x k = E.cfg.value x k
  /-- The options that stayed have their values, -/
  stayed : ∀ k ∈ a ++ z, c'.value s k = E.cfg.value s k
  /-- and so have those that were moved. -/
  values : ∀ k ∈ m, c'.value t k = E.cfg.value s k
  /-- There is a DEFAULT section if there was one, and it is not the new section. -/
  default : c'.hasSection E.defaultName = E.cfg.hasSection E.defaultName ∧ t ≠ E.defaultName

/-- The handlers of the class do not look at the name of the section in which an option stands. -/
def Indifferent (E : Env δ ω) : Prop :=
  ∀ h : Handler δ ω, ((∃ op, publicHandler E op = some h) ∨ ∃ op, E.priv op = some (.user h)) →
    ∀ c x, h.run { c with sectionName := x } = h.run c

end CPE.Spec
