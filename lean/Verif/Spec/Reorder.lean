import Verif.Spec.Keywords
/-
C88: sections that differ in the order of what they list.
-/
namespace CPE.KW.Spec
open CPE CPE.Spec CPE.KW

/-- The same keys in any order, each with the same values in any order. -/
def Reordered (d d' : Options) : Prop :=
  (Dict.keys d).Perm (Dict.keys d') ∧ ∀ k ∈ Dict.keys d, (valuesIn d k).Perm (valuesIn d' k)

/-- No two different names in the build name have the same length, and no two different aliases. -/
def NoTie (d : Options) (build : Str) : Prop :=
  ∀ x y, ((x ∈ Dict.keys d ∧ y ∈ Dict.keys d) ∨ (x ∈ allValues d ∧ y ∈ allValues d)) →
    Occurs x build → Occurs y build → x.length = y.length → x = y

end CPE.KW.Spec
