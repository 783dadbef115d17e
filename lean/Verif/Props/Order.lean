import Verif.Proofs.Order
import Verif.Props.Resolve
import Verif.Model.Keywords
import Verif.Proofs.Local
/-
C85: when the order of options is of no account.
-/
namespace CPE.Props
open CPE CPE.Spec
variable {δ ω : Type} {E : Env δ ω} {c' : Cfg} {s r : Str} {a m z old new : List Str} {k1 k2 w : Str}

theorem edited_values (D : Edited E c' s old new) (H : Harmless E s old new) {d d' : Options} (hd : Resolved E r d)
    (hd' : Resolved { E with cfg := c' } r d') (k : Str) : Dict.get? d' k = Dict.get? d k := by
  obtain ⟨evs, h1, h2⟩ := hd
  obtain ⟨evs', h3, h4⟩ := parseTrace_edited D H h1
  obtain ⟨evs'', h5, h6⟩ := hd'
  cases parseTrace_det h5 h3
  rw [h6.2, h2.2, h4]

/-- C85: two neighbouring options of a section that cannot write the same key, `use` options included, may change places: no value of
any section changes. -/
theorem C85_swap (D : Edited E c' s (a ++ k1 :: k2 :: z) (a ++ k2 :: k1 :: z)) (h : ∀ k, ¬ (Writes E s k1 k ∧ Writes E s k2 k))
    {d d' : Options} (hd : Resolved E r d) (hd' : Resolved { E with cfg := c' } r d') (k : Str) : Dict.get? d' k = Dict.get? d k :=
  edited_values D (harmless_swap h) hd hd' k

/-- C85: a `use` of a section that the same section uses again further down may be left out: no value of any section changes. -/
theorem C85_again (D : Edited E c' s (a ++ k1 :: (m ++ k2 :: z)) (a ++ (m ++ k2 :: z))) (h1 : meaning E s s k1 = .link w)
    (h2 : meaning E s s k2 = .link w) {d d' : Options} (hd : Resolved E r d) (hd' : Resolved { E with cfg := c' } r d') (k : Str) :
    Dict.get? d' k = Dict.get? d k :=
  edited_values D (harmless_again h1 h2) hd hd' k

/-- C85 on the API, for both: after first parses of a section that succeed, it has the same keys with the same values. -/
theorem C85_parse
    (D : (∃ a k1 k2 z, Edited E c' s (a ++ k1 :: k2 :: z) (a ++ k2 :: k1 :: z) ∧ ∀ k, ¬ (Writes E s k1 k ∧ Writes E s k2 k)) ∨
      ∃ a k1 m k2 z w, Edited E c' s (a ++ k1 :: (m ++ k2 :: z)) (a ++ (m ++ k2 :: z)) ∧
        meaning E s s k1 = .link w ∧ meaning E s s k2 = .link w)
    {n n' : Nat} {f f' : Bool} {o o1 p p1 : Obj δ ω} {x y : δ} (ho : Dict.get? o.data r = none) (hp : Dict.get? p.data r = none)
    (h : parseSection E n r true f o = (.ok x, o1)) (h' : parseSection { E with cfg := c' } n' r true f' p = (.ok y, p1)) :
    ∃ d d', Dict.get? o1.data r = some d ∧ Dict.get? p1.data r = some d' ∧ ∀ k, Dict.get? d' k = Dict.get? d k := by
  obtain ⟨d, g1, g2⟩ := C01_parse_resolves (.inl ho) h
  obtain ⟨d', g3, g4⟩ := C01_parse_resolves (.inl hp) h'
  refine ⟨d, d', g1, g3, fun k => ?_⟩
  rcases D with ⟨a, k1, k2, z, D, hw⟩ | ⟨a, k1, m, k2, z, w, D, m1, m2⟩
  · exact C85_swap D hw g2 g4 k
  · exact C85_again D m1 m2 g2 g4 k

/-! ### Concrete cases -/

/-- `[A]  first: 0   x: 1   use B   last: 4`, `[B]  y: 3`. -/
def swapOld : Cfg where
  sections := [(py!"A", [(py!"first", some py!"0"), (py!"x", some py!"1"), (py!"use B", none), (py!"last", some py!"4")]),
    (py!"B", [(py!"y", some py!"3")])]

/-- The same with `use B` before `x`. -/
def swapNew : Cfg where
  sections := [(py!"A", [(py!"first", some py!"0"), (py!"use B", none), (py!"x", some py!"1"), (py!"last", some py!"4")]),
    (py!"B", [(py!"y", some py!"3")])]

theorem names_other {c : Cfg} {l1 l2 : Options} (hc : c = { sections := [(py!"A", l1), (py!"B", l2)] }) {x : Str} (h1 : x ≠ py!"A")
    (h2 : x ≠ py!"B") : c.optionNames x = if x = py!"CONFIGPARSERENHANCED_COMMON" then some [] else none := by
  subst hc
  by_cases h3 : x = py!"CONFIGPARSERENHANCED_COMMON"
  · subst h3; rfl
  · simp [Cfg.optionNames, Dict.get?, Ne.symm h1, Ne.symm h2, h3]

theorem swap_edited : Edited (KW.cls swapOld) swapNew py!"A" ([py!"first"] ++ py!"x" :: py!"use B" :: [py!"last"])
    ([py!"first"] ++ py!"use B" :: py!"x" :: [py!"last"]) where
  before := by decide +kernel
  after := by decide +kernel
  others := by
    intro x h1
    by_cases h2 : x = py!"B"
    · subst h2; decide +kernel
    · exact (names_other rfl h1 h2).trans (names_other (c := swapOld) rfl h1 h2).symm
  values := by
    intro x keys k h1 h2
    by_cases hA : x = py!"A"
    · subst hA
      rw [show swapNew.optionNames py!"A" = some [py!"first", py!"use B", py!"x", py!"last"] by decide +kernel] at h1
      cases h1
      revert k
      decide +kernel
    · by_cases hB : x = py!"B"
      · subst hB
        rw [show swapNew.optionNames py!"B" = some [py!"y"] by decide +kernel] at h1
        cases h1
        revert k
        decide +kernel
      · rw [names_other (c := swapNew) rfl hA hB] at h1
        split at h1
        · cases h1; cases h2
        · cases h1
  default := by decide +kernel

theorem order_link {c : Cfg} {x k w : Str} (hv : c.value x k = .ok none) (hs : shlexSplit (strip k) = .ok [py!"use", w]) :
    meaning (KW.cls c) x x k = .link w :=
  meaning_use (v := none) (w := py!"use") (qs := []) hv hs (by decide +kernel) rfl rfl

theorem order_store {c : Cfg} {x k v : Str} (hv : c.value x k = .ok (some v)) (hs : shlexSplit (strip k) = .ok [k])
    (hk : opName k ≠ py!"initialize" ∧ opName k ≠ py!"finalize" ∧ opName k ≠ py!"use") (hst : strip k = k) :
    ∃ v, meaning (KW.cls c) x x k = .events [.store k v] := by
  unfold meaning
  rw [show (KW.cls c).cfg.value x k = _ from hv]
  dsimp only
  rw [hs]
  dsimp only
  have h1 : publicHandler (KW.cls c) (opName k) = none := by
    simp [publicHandler, hk.1, hk.2.1, baseClass]
  have h2 : (KW.cls c).priv (opName k) = none := by
    simp [baseClass, hk.2.2]
  rw [h1, h2, hst]
  split <;> exact ⟨_, rfl⟩

theorem swap_writes (k : Str) : ¬ (Writes (KW.cls swapOld) py!"A" py!"x" k ∧ Writes (KW.cls swapOld) py!"A" py!"use B" k) := by
  rintro ⟨h1, h2⟩
  obtain ⟨v, hx⟩ := order_store (c := swapOld) (x := py!"A") (k := py!"x") (v := py!"1") (by decide +kernel) (by decide +kernel)
    (by decide +kernel) (by decide +kernel)
  obtain ⟨v', hy⟩ := order_store (c := swapOld) (x := py!"B") (k := py!"y") (v := py!"3") (by decide +kernel) (by decide +kernel)
    (by decide +kernel) (by decide +kernel)
  have hl := order_link (c := swapOld) (x := py!"A") (k := py!"use B") (w := py!"B") (by decide +kernel) (by decide +kernel)
  have hk : k = py!"x" := by
    rcases h1 with ⟨_, h1⟩ | ⟨_, _, h1, _⟩
    · rw [hx] at h1; cases h1; rfl
    · rw [hx] at h1; cases h1
  have hB : (KW.cls swapOld).cfg.optionNames py!"B" = some [py!"y"] := by decide +kernel
  rcases h2 with ⟨_, h2⟩ | ⟨w, t, h2, h3, keys, key, v, h4, h5, h6⟩
  · rw [hl] at h2; cases h2
  · rw [hl] at h2
    cases h2
    have ht : t = py!"B" := by
      cases h3 with
      | refl => rfl
      | step h _ =>
        obtain ⟨ks, j, g1, g2, g3⟩ := h
        rw [hB] at g1; cases g1
        rw [List.mem_singleton.1 g2, hy] at g3
        cases g3
    subst ht
    rw [hB] at h4; cases h4
    rw [List.mem_singleton.1 h5, hy] at h6
    cases h6
    revert hk; decide +kernel

/-- Both orders give A the same values, in another order of keys. -/
example : Dict.get? (parseSection (KW.cls swapOld) 9 py!"A" true true (Obj.fresh (KW.cls swapOld) ())).2.data py!"A" =
      some [(py!"first", some py!"0"), (py!"x", some py!"1"), (py!"y", some py!"3"), (py!"last", some py!"4")] ∧
    Dict.get? (parseSection (KW.cls swapNew) 9 py!"A" true true (Obj.fresh (KW.cls swapNew) ())).2.data py!"A" =
      some [(py!"first", some py!"0"), (py!"y", some py!"3"), (py!"x", some py!"1"), (py!"last", some py!"4")] ∧
    ∀ d d', Resolved (KW.cls swapOld) py!"A" d → Resolved (KW.cls swapNew) py!"A" d' → ∀ k, Dict.get? d' k = Dict.get? d k :=
  ⟨by decide +kernel, by decide +kernel, fun _ _ h h' => C85_swap swap_edited swap_writes h h'⟩

/-- The order does matter if both can write a key: here `x`. -/
example : (Dict.get? (parseSection (KW.cls { sections := [(py!"A", [(py!"x", some py!"1"), (py!"use B", none)]), (py!"B", [(py!"x", some py!"2")])] })
      9 py!"A" true true (Obj.fresh (KW.cls swapOld) ())).2.data py!"A") = some [(py!"x", some py!"2")] ∧
    (Dict.get? (parseSection (KW.cls { sections := [(py!"A", [(py!"use B", none), (py!"x", some py!"1")]), (py!"B", [(py!"x", some py!"2")])] })
      9 py!"A" true true (Obj.fresh (KW.cls swapOld) ())).2.data py!"A") = some [(py!"x", some py!"1")] := ⟨by decide +kernel, by decide +kernel⟩

/-- `[A]  use B   x: 1   use 'B'`, `[B]  x: 2   use A`. -/
def againOld : Cfg where
  sections := [(py!"A", [(py!"use B", none), (py!"x", some py!"1"), (py!"use 'B'", none)]),
    (py!"B", [(py!"x", some py!"2"), (py!"use A", none)])]

/-- The same without the first `use`. -/
def againNew : Cfg where
  sections := [(py!"A", [(py!"x", some py!"1"), (py!"use 'B'", none)]), (py!"B", [(py!"x", some py!"2"), (py!"use A", none)])]

theorem again_edited : Edited (KW.cls againOld) againNew py!"A" ([] ++ py!"use B" :: ([py!"x"] ++ py!"use 'B'" :: []))
    ([] ++ ([py!"x"] ++ py!"use 'B'" :: [])) where
  before := by decide +kernel
  after := by decide +kernel
  others := by
    intro x h1
    by_cases h2 : x = py!"B"
    · subst h2; decide +kernel
    · exact (names_other rfl h1 h2).trans (names_other (c := againOld) rfl h1 h2).symm
  values := by
    intro x keys k h1 h2
    by_cases hA : x = py!"A"
    · subst hA
      rw [show againNew.optionNames py!"A" = some [py!"x", py!"use 'B'"] by decide +kernel] at h1
      cases h1
      revert k
      decide +kernel
    · by_cases hB : x = py!"B"
      · subst hB
        rw [show againNew.optionNames py!"B" = some [py!"x", py!"use A"] by decide +kernel] at h1
        cases h1
        revert k
        decide +kernel
      · rw [names_other (c := againNew) rfl hA hB] at h1
        split at h1
        · cases h1; cases h2
        · cases h1
  default := by decide +kernel

/-- The first `use` may be left out, for the sections A and B that use each other. -/
example : (∀ r d d', Resolved (KW.cls againOld) r d → Resolved (KW.cls againNew) r d' → ∀ k, Dict.get? d' k = Dict.get? d k) ∧
    Dict.get? (parseSection (KW.cls againNew) 9 py!"A" true true (Obj.fresh (KW.cls againNew) ())).2.data py!"A" =
      some [(py!"x", some py!"2")] :=
  ⟨fun _ _ _ h h' => C85_again again_edited (order_link (w := py!"B") (by decide +kernel) (by decide +kernel))
      (order_link (w := py!"B") (by decide +kernel) (by decide +kernel)) h h', by decide +kernel⟩

end CPE.Props
