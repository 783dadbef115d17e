import Verif.Proofs.Move
import Verif.Props.Resolve
import Verif.Model.Keywords
import Verif.Proofs.Local
/-
C83: options may be moved into a section of their own.
-/
namespace CPE.Props
open CPE CPE.Spec
variable {δ ω : Type} {E : Env δ ω} {c' : Cfg} {s t u r : Str} {a m z : List Str}

/-- C83: if options of a section are moved into a new section, and a `use` of it is put in their place, then every section
(but the new one) has the same enhanced data as before, in the same order: for every class and all `use` links, also cyclic ones. -/
theorem C83_data (M : Moved E c' s t u a m z) (hr : r ≠ t) (d : Options) :
    Resolved { E with cfg := c' } r d ↔ Resolved E r d := by
  have key : ∀ d, Resolved E r d → Resolved { E with cfg := c' } r d := by
    rintro d ⟨evs, h1, h2⟩
    obtain ⟨evs', h3, h4⟩ := parseTrace_moved M hr h1
    exact ⟨evs', h3, by rw [rel_stores h4]; exact h2⟩
  refine ⟨fun h => ?_, key d⟩
  obtain ⟨d0, h0⟩ := resolved_total E r
  rw [resolved_unique h (key d0 h0)]
  exact h0

/-- C83: and `parse_section` of every section but the new one does the same on every object, if the handlers of the class do
not look at the name of the section in which an option stands: it raises the same exception or returns the same shared data, and
leaves the same attributes of the class, the same notices, and the same data of all sections but the new one. -/
theorem C83_parse (M : Moved E c' s t u a m z) (hr : r ≠ t) (hi : Indifferent E) (hne : r ≠ []) {n : Nat}
    (hn : E.cfg.sectionNames.length + 3 ≤ n) (hn' : c'.sectionNames.length + 3 ≤ n) {i f : Bool}
    (hd : i = true → E.cfg.hasSection E.defaultName = true → r = E.defaultName ∨ ¬ Reaches E E.defaultName r) (o : Obj δ ω) :
    let before := parseSection E n r i f o
    let after := parseSection { E with cfg := c' } n r i f o
    after.1 = before.1 ∧ after.2.lastResult = before.2.lastResult ∧ after.2.self = before.2.self ∧ after.2.shared = before.2.shared ∧
      after.2.out = before.2.out ∧ after.2.checked = before.2.checked ∧
      ∀ x, x ≠ t → Dict.get? after.2.data x = Dict.get? before.2.data x := by
  intro before after
  obtain ⟨evs, h1⟩ := parseTrace_total E r i f
  obtain ⟨evs', h2, h3⟩ := parseTrace_moved M hr h1
  have hd' : i = true → ({ E with cfg := c' } : Env δ ω).cfg.hasSection E.defaultName = true →
      r = E.defaultName ∨ ¬ Reaches { E with cfg := c' } E.defaultName r := fun hi hx =>
    (hd hi (M.default.1.symm.trans hx)).imp id fun h h' => h ((reaches_moved M h' hr).1 M.default.2.symm)
  obtain ⟨_, b1, b2⟩ := C01_parse_is_replay (E := E) (o := o) hne h1 hn hd
  obtain ⟨_, a1, a2⟩ := C01_parse_is_replay (E := { E with cfg := c' }) (o := o) hne h2 hn' hd'
  obtain ⟨e1, e2⟩ := replay_moved (E := E) (c' := c') (root := r) hi hr h3
    { o.toCore with shared := E.emptyShared, checked := setAdd o.checked r }
    { o.toCore with shared := E.emptyShared, checked := setAdd o.checked r } ⟨fun _ _ => rfl, rfl, rfl, rfl, rfl⟩
  have hsame : after.1 = before.1 ∧ after.2.lastResult = before.2.lastResult := by
    dsimp only at a2 b2
    rw [show ({ E with cfg := c' } : Env δ ω).emptyShared = E.emptyShared from rfl, e1] at a2
    cases hx : (replay E r evs { o.toCore with shared := E.emptyShared, checked := setAdd o.checked r }).1 with
    | none =>
      rw [hx] at a2 b2
      exact ⟨a2.1.trans ((congrArg Out.ok e2.shared).trans b2.1.symm), a2.2.trans ((congrArg some e2.shared).trans b2.2.symm)⟩
    | some e =>
      rw [hx] at a2 b2
      exact ⟨a2.1.trans b2.1.symm, a2.2.trans b2.2.symm⟩
  refine ⟨hsame.1, hsame.2, ?_⟩
  have ha : after.2.toCore = _ := a1
  have hb : before.2.toCore = _ := b1
  have hc : CoreRel t before.2.toCore after.2.toCore := by rw [ha, hb]; exact e2
  exact ⟨hc.self, hc.shared, hc.out, hc.checked, hc.data⟩

/-! ### A concrete case -/

/--
```
[A]                       [A]
base: 1                   base: 1
x: 2                      use 'NEW'
use B                     z: 4
z: 4                      [B]
[B]                       y: 3
y: 3                      use A
use A                     [NEW]
                          x: 2
                          use B
```
-/
def moveOld : Cfg where
  sections := [(py!"A", [(py!"base", some py!"1"), (py!"x", some py!"2"), (py!"use B", none), (py!"z", some py!"4")]),
    (py!"B", [(py!"y", some py!"3"), (py!"use A", none)])]

def moveNew : Cfg where
  sections := [(py!"A", [(py!"base", some py!"1"), (py!"use 'NEW'", none), (py!"z", some py!"4")]),
    (py!"B", [(py!"y", some py!"3"), (py!"use A", none)]), (py!"NEW", [(py!"x", some py!"2"), (py!"use B", none)])]

theorem move_moved : Moved (KW.cls moveOld) moveNew py!"A" py!"NEW" py!"use 'NEW'" [py!"base"] [py!"x", py!"use B"] [py!"z"] where
  before := by decide +kernel
  after := by decide +kernel
  link := fun _ => meaning_use (v := none) (w := py!"use") (qs := []) (by decide +kernel) (by decide +kernel) (by decide +kernel) rfl rfl
  moved := by decide +kernel
  new := by decide +kernel
  unused := by
    rintro x ⟨keys, k, h1, h2, h3⟩
    have hl : ∀ w, k = w → ∀ y qs, (KW.cls moveOld).cfg.value x w = .ok none → shlexSplit (strip w) = .ok (py!"use" :: y :: qs) → y = py!"NEW" := by
      rintro _ rfl y qs hv hs
      have := meaning_use (E := KW.cls moveOld) (root := x) hv hs (by decide +kernel) rfl rfl
      rw [h3] at this
      cases this; rfl
    have hst : ∀ w v, k = w → (KW.cls moveOld).cfg.value x w = .ok (some v) → meaning (KW.cls moveOld) x x k = .link py!"NEW" → shlexSplit (strip w) = .ok [w] → False := by
      rintro _ v rfl hv hm hs
      unfold meaning at hm
      rw [hv] at hm
      dsimp only at hm
      rw [hs] at hm
      dsimp only at hm
      split at hm
      · split at hm <;> try cases hm
      · cases hm
    have hx : x = py!"A" ∨ x = py!"B" ∨ x = py!"CONFIGPARSERENHANCED_COMMON" := by
      refine Classical.byContradiction fun hn => ?_
      simp only [not_or] at hn
      have : moveOld.optionNames x = none := by
        simp [Cfg.optionNames, moveOld, Dict.get?, Ne.symm hn.1, Ne.symm hn.2.1, hn.2.2]
      rw [show (KW.cls moveOld).cfg.optionNames x = _ from this] at h1
      cases h1
    rcases hx with rfl | rfl | rfl
    · rw [show (KW.cls moveOld).cfg.optionNames py!"A" = some [py!"base", py!"x", py!"use B", py!"z"] by decide +kernel] at h1
      cases h1
      simp only [List.mem_cons, List.not_mem_nil, or_false] at h2
      rcases h2 with h | h | h | h
      · exact hst _ py!"1" h (by decide +kernel) h3 (by decide +kernel)
      · exact hst _ py!"2" h (by decide +kernel) h3 (by decide +kernel)
      · exact absurd (hl _ h py!"B" [] (by decide +kernel) (by decide +kernel)) (by decide +kernel)
      · exact hst _ py!"4" h (by decide +kernel) h3 (by decide +kernel)
    · rw [show (KW.cls moveOld).cfg.optionNames py!"B" = some [py!"y", py!"use A"] by decide +kernel] at h1
      cases h1
      simp only [List.mem_cons, List.not_mem_nil, or_false] at h2
      rcases h2 with h | h
      · exact hst _ py!"3" h (by decide +kernel) h3 (by decide +kernel)
      · exact absurd (hl _ h py!"A" [] (by decide +kernel) (by decide +kernel)) (by decide +kernel)
    · rw [show (KW.cls moveOld).cfg.optionNames py!"CONFIGPARSERENHANCED_COMMON" = some [] by decide +kernel] at h1
      cases h1
      cases h2
  others := by
    intro x h1 h2
    by_cases hb : x = py!"B"
    · subst hb
      exact ⟨by decide +kernel, fun keys hk => by
        rw [show (KW.cls moveOld).cfg.optionNames py!"B" = some [py!"y", py!"use A"] by decide +kernel] at hk
        cases hk
        decide +kernel⟩
    · have hn : x ≠ py!"CONFIGPARSERENHANCED_COMMON" → moveOld.optionNames x = none ∧ moveNew.optionNames x = none := by
        intro hc
        constructor <;> simp [Cfg.optionNames, moveOld, moveNew, Dict.get?, Ne.symm h1, Ne.symm h2, Ne.symm hb, hc]
      by_cases hc : x = py!"CONFIGPARSERENHANCED_COMMON"
      · subst hc
        exact ⟨by decide +kernel, fun keys hk => by
          rw [show (KW.cls moveOld).cfg.optionNames py!"CONFIGPARSERENHANCED_COMMON" = some [] by decide +kernel] at hk
          cases hk
          intro k hk; cases hk⟩
      · exact ⟨(hn hc).2.trans (hn hc).1.symm, fun keys hk => by
          rw [show (KW.cls moveOld).cfg.optionNames x = _ from (hn hc).1] at hk; cases hk⟩
  stayed := by decide +kernel
  values := by decide +kernel
  default := ⟨by decide +kernel, by decide +kernel⟩

/-- The handlers of the class do not look at the section. -/
theorem base_indifferent (c : Cfg) : Indifferent (KW.cls c) := by
  intro h hh c' x
  rcases hh with ⟨op, hh⟩ | ⟨op, hh⟩
  · unfold publicHandler at hh
    split at hh
    · cases hh; rfl
    · split at hh
      · cases hh; rfl
      · cases hh
  · simp only [baseClass] at hh
    split at hh <;> cases hh

/-- Both files give the same for A: the parse of the new file is that of the old one. -/
example : Dict.get? (parseSection (KW.cls moveNew) 9 py!"A" true true (Obj.fresh (KW.cls moveNew) ())).2.data py!"A" =
      some [(py!"base", some py!"1"), (py!"x", some py!"2"), (py!"y", some py!"3"), (py!"z", some py!"4")] ∧
    Dict.get? (parseSection (KW.cls moveNew) 9 py!"A" true true (Obj.fresh (KW.cls moveNew) ())).2.data py!"A" =
      Dict.get? (parseSection (KW.cls moveOld) 9 py!"A" true true (Obj.fresh (KW.cls moveOld) ())).2.data py!"A" :=
  ⟨by decide +kernel,
    (C83_parse move_moved (r := py!"A") (by decide +kernel) (base_indifferent _) (by decide +kernel) (n := 9) (by decide +kernel)
      (by decide +kernel) (i := true) (f := true) (fun _ h => absurd h (by decide +kernel)) (Obj.fresh (KW.cls moveOld) ())).2.2.2.2.2.2 _ (by decide +kernel)⟩

end CPE.Props
