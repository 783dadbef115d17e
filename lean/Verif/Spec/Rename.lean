import Verif.Spec.Resolve
/-
Specification for renaming the sections of a file.
-/
namespace CPE.Spec
variable {δ ω : Type}

/-- The file `c'` is the file of `E` with every section `x` called `ρ x`: no two sections get the same name, DEFAULT keeps its
name, every option that uses a section is replaced (by `κ`) with one that uses it under its new name, and every other option
stands as it was, with its value. -/
structure Renamed (E : Env δ ω) (c' : Cfg) (ρ : Str → Str) (κ : Str → Str → Str) : Prop where
  inj : ∀ x y, ρ x = ρ y → x = y
  default : ρ E.defaultName = E.defaultName ∧ c'.hasSection E.defaultName = E.cfg.hasSection E.defaultName
  options : ∀ x, c'.optionNames (ρ x) = (E.cfg.optionNames x).map (List.map (κ x))
  uses : ∀ x keys k w, E.cfg.optionNames x = some keys → k ∈ keys → meaning E x x k = .link w →
    meaning { E with cfg := c' } (ρ x) (ρ x) (κ x k) = .link (ρ w)
  others : ∀ x keys k, E.cfg.optionNames x = some keys → k ∈ keys → (∀ w, meaning E x x k ≠ .link w) →
    κ x k = k ∧ c'.value (ρ x) k = E.cfg.value x k

/-- The handlers of the class look neither at the name of the section in which an option stands nor at that of the section that is
parsed. -/
def NameBlind (E : Env δ ω) : Prop :=
  ∀ h : Handler δ ω, ((∃ op, publicHandler E op = some h) ∨ ∃ op, E.priv op = some (.user h)) →
    ∀ c x y, h.run { c with sectionName := x, sectionRoot := y } = h.run c

end CPE.Spec
