import Verif.Proofs.Rename
import Verif.Props.Resolve
import Verif.Model.Keywords
import Verif.Proofs.Local
/-
C84: the names of the sections carry no meaning.
-/
namespace CPE.Props
open CPE CPE.Spec
variable {δ ω : Type} {E : Env δ ω} {c' : Cfg} {ρ : Str → Str} {κ : Str → Str → Str} {r : Str}

/-- C84: if the sections of a file are given other names, here and in the `use` options, every section has the enhanced data that it
had under its old name, in the same order: for every class and all `use` links, also cyclic ones and those that lead nowhere. -/
theorem C84_data (R : Renamed E c' ρ κ) (d : Options) : Resolved { E with cfg := c' } (ρ r) d ↔ Resolved E r d := by
  have key : ∀ d, Resolved E r d → Resolved { E with cfg := c' } (ρ r) d := by
    rintro d ⟨evs, h1, h2⟩
    exact ⟨_, (parseTrace_renamed R h1).1, by rw [renEv_stores]; exact h2⟩
  refine ⟨fun h => ?_, key d⟩
  obtain ⟨d0, h0⟩ := resolved_total E r
  rw [resolved_unique h (key d0 h0)]
  exact h0

/-- C84: and `parse_section` does the same under the new name, on objects that hold the same under the new names, if the handlers of
the class do not look at the names of sections: it raises the same exception or returns the same shared data, and leaves the same
attributes of the class, the same notices, and the same data of every section under its new name. -/
theorem C84_parse (R : Renamed E c' ρ κ) (hb : NameBlind E) (hne : r ≠ []) (hne' : ρ r ≠ []) {n : Nat}
    (hn : E.cfg.sectionNames.length + 3 ≤ n) (hn' : c'.sectionNames.length + 3 ≤ n) {i f : Bool}
    (hd : i = true → E.cfg.hasSection E.defaultName = true → r = E.defaultName ∨ ¬ Reaches E E.defaultName r) (o o' : Obj δ ω)
    (hdata : ∀ x, Dict.get? o'.data (ρ x) = Dict.get? o.data x) (hself : o'.self = o.self) (hout : o'.out = o.out) :
    let before := parseSection E n r i f o
    let after := parseSection { E with cfg := c' } n (ρ r) i f o'
    after.1 = before.1 ∧ after.2.self = before.2.self ∧ after.2.shared = before.2.shared ∧ after.2.out = before.2.out ∧
      ∀ x, Dict.get? after.2.data (ρ x) = Dict.get? before.2.data x := by
  intro before after
  obtain ⟨evs, h1⟩ := parseTrace_total E r i f
  obtain ⟨h2, h3⟩ := parseTrace_renamed R h1
  have hd' : i = true → ({ E with cfg := c' } : Env δ ω).cfg.hasSection E.defaultName = true →
      ρ r = E.defaultName ∨ ¬ Reaches { E with cfg := c' } E.defaultName (ρ r) := fun hi hx =>
    (hd hi (R.default.2.symm.trans hx)).imp (fun h => by rw [h]; exact R.default.1) fun h h' => by
      obtain ⟨w, e, hw⟩ := reaches_renamed R h' _ R.default.1.symm
      exact h (R.inj _ _ e ▸ hw)
  obtain ⟨_, b1, b2⟩ := C01_parse_is_replay (E := E) (o := o) hne h1 hn hd
  obtain ⟨_, a1, a2⟩ := C01_parse_is_replay (E := { E with cfg := c' }) (o := o') hne' h2 hn' hd'
  obtain ⟨e1, e2⟩ := replay_renamed (E := E) (c' := c') (root := r) R.inj hb evs h3
    { o.toCore with shared := E.emptyShared, checked := setAdd o.checked r }
    { o'.toCore with shared := E.emptyShared, checked := setAdd o'.checked (ρ r) } ⟨hdata, rfl, hself, hout⟩
  have hsame : after.1 = before.1 := by
    dsimp only at a2 b2
    rw [show ({ E with cfg := c' } : Env δ ω).emptyShared = E.emptyShared from rfl, e1] at a2
    cases hx : (replay E r evs { o.toCore with shared := E.emptyShared, checked := setAdd o.checked r }).1 with
    | none =>
      rw [hx] at a2 b2
      exact a2.1.trans ((congrArg Out.ok e2.shared).trans b2.1.symm)
    | some e =>
      rw [hx] at a2 b2
      exact a2.1.trans b2.1.symm
  have ha : after.2.toCore = _ := a1
  have hb : before.2.toCore = _ := b1
  have hc : NameRel ρ before.2.toCore after.2.toCore := by rw [ha, hb]; exact e2
  exact ⟨hsame, hc.self, hc.shared, hc.out, hc.data⟩

/-! ### A concrete case -/

/--
```
[A]                       [Main]
base: 1                   base: 1
use B                     use B
[B]                       [B]
y: 3                      y: 3
use A                     use Main
```
-/
def renOld : Cfg where
  sections := [(py!"A", [(py!"base", some py!"1"), (py!"use B", none)]), (py!"B", [(py!"y", some py!"3"), (py!"use A", none)])]

def renNew : Cfg where
  sections := [(py!"Main", [(py!"base", some py!"1"), (py!"use B", none)]), (py!"B", [(py!"y", some py!"3"), (py!"use Main", none)])]

def renName (x : Str) : Str := if x = py!"A" then py!"Main" else if x = py!"Main" then py!"A" else x

def renKey (_ k : Str) : Str := if k = py!"use A" then py!"use Main" else k

theorem ren_cases (x : Str) (keys : List Str) (h : renOld.optionNames x = some keys) :
    (x = py!"A" ∧ keys = [py!"base", py!"use B"]) ∨ (x = py!"B" ∧ keys = [py!"y", py!"use A"]) ∨
    (x = py!"CONFIGPARSERENHANCED_COMMON" ∧ keys = []) := by
  by_cases h1 : x = py!"A"
  · subst h1
    rw [show renOld.optionNames py!"A" = some [py!"base", py!"use B"] by decide +kernel] at h
    cases h; exact .inl ⟨rfl, rfl⟩
  by_cases h2 : x = py!"B"
  · subst h2
    rw [show renOld.optionNames py!"B" = some [py!"y", py!"use A"] by decide +kernel] at h
    cases h; exact .inr (.inl ⟨rfl, rfl⟩)
  by_cases h3 : x = py!"CONFIGPARSERENHANCED_COMMON"
  · subst h3
    rw [show renOld.optionNames py!"CONFIGPARSERENHANCED_COMMON" = some [] by decide +kernel] at h
    cases h; exact .inr (.inr ⟨rfl, rfl⟩)
  · have : renOld.optionNames x = none := by
      simp [Cfg.optionNames, renOld, Dict.get?, Ne.symm h1, Ne.symm h2, h3]
    rw [this] at h; cases h

theorem ren_link {c : Cfg} {x k w : Str} (hv : c.value x k = .ok none) (hs : shlexSplit (strip k) = .ok [py!"use", w]) :
    meaning (KW.cls c) x x k = .link w :=
  meaning_use (v := none) (w := py!"use") (qs := []) hv hs (by decide +kernel) rfl rfl

theorem ren_store {c : Cfg} {x k v w : Str} (hv : c.value x k = .ok (some v)) (hs : shlexSplit (strip k) = .ok [k]) :
    meaning (KW.cls c) x x k ≠ .link w := by
  intro hm
  unfold meaning at hm
  rw [show (KW.cls c).cfg.value x k = _ from hv] at hm
  dsimp only at hm
  rw [hs] at hm
  dsimp only at hm
  split at hm
  · split at hm <;> try cases hm
  · cases hm

theorem ren_renamed : Renamed (KW.cls renOld) renNew renName renKey where
  inj := by
    intro x y h
    unfold renName at h
    by_cases a1 : x = py!"A" <;> by_cases a2 : x = py!"Main" <;> by_cases b1 : y = py!"A" <;> by_cases b2 : y = py!"Main" <;> simp_all
  default := ⟨by decide +kernel, by decide +kernel⟩
  options := by
    intro x
    show renNew.optionNames (renName x) = (renOld.optionNames x).map _
    cases hx : renOld.optionNames x with
    | some keys => rcases ren_cases x keys hx with ⟨rfl, rfl⟩ | ⟨rfl, rfl⟩ | ⟨rfl, rfl⟩ <;> decide +kernel
    | none =>
      have h1 : x ≠ py!"A" := by rintro rfl; revert hx; decide +kernel
      have h2 : x ≠ py!"B" := by rintro rfl; revert hx; decide +kernel
      have h3 : x ≠ py!"CONFIGPARSERENHANCED_COMMON" := by rintro rfl; revert hx; decide +kernel
      by_cases h4 : x = py!"Main"
      · subst h4; decide +kernel
      · have : renName x = x := by simp [renName, h1, h4]
        rw [this]
        simp [Cfg.optionNames, renNew, Dict.get?, Ne.symm h2, Ne.symm h4, h3]
  uses := by
    intro x keys k w h1 h2 h3
    rcases ren_cases x keys h1 with ⟨rfl, rfl⟩ | ⟨rfl, rfl⟩ | ⟨rfl, rfl⟩
    · simp only [List.mem_cons, List.not_mem_nil, or_false] at h2
      rcases h2 with rfl | rfl
      · exact absurd h3 (ren_store (v := py!"1") (by decide +kernel) (by decide +kernel))
      · rw [ren_link (w := py!"B") (by decide +kernel) (by decide +kernel)] at h3
        cases h3
        exact ren_link (c := renNew) (by decide +kernel) (by decide +kernel)
    · simp only [List.mem_cons, List.not_mem_nil, or_false] at h2
      rcases h2 with rfl | rfl
      · exact absurd h3 (ren_store (v := py!"3") (by decide +kernel) (by decide +kernel))
      · rw [ren_link (w := py!"A") (by decide +kernel) (by decide +kernel)] at h3
        cases h3
        exact ren_link (c := renNew) (by decide +kernel) (by decide +kernel)
    · cases h2
  others := by
    intro x keys k h1 h2 h3
    rcases ren_cases x keys h1 with ⟨rfl, rfl⟩ | ⟨rfl, rfl⟩ | ⟨rfl, rfl⟩
    · simp only [List.mem_cons, List.not_mem_nil, or_false] at h2
      rcases h2 with rfl | rfl
      · exact ⟨by decide +kernel, by decide +kernel⟩
      · exact absurd (ren_link (w := py!"B") (by decide +kernel) (by decide +kernel)) (h3 _)
    · simp only [List.mem_cons, List.not_mem_nil, or_false] at h2
      rcases h2 with rfl | rfl
      · exact ⟨by decide +kernel, by decide +kernel⟩
      · exact absurd (ren_link (w := py!"A") (by decide +kernel) (by decide +kernel)) (h3 _)
    · cases h2

/-- The handlers of the class do not look at the names of sections. -/
theorem base_nameBlind (c : Cfg) : NameBlind (KW.cls c) := by
  intro h hh c' x y
  rcases hh with ⟨op, hh⟩ | ⟨op, hh⟩
  · unfold publicHandler at hh
    split at hh
    · cases hh; rfl
    · split at hh
      · cases hh; rfl
      · cases hh
  · simp only [baseClass] at hh
    split at hh <;> cases hh

/-- The section A, now called Main, has what it had, although B uses it. -/
example : Dict.get? (parseSection (KW.cls renNew) 9 py!"Main" true true (Obj.fresh (KW.cls renNew) ())).2.data py!"Main" =
      some [(py!"base", some py!"1"), (py!"y", some py!"3")] ∧
    Dict.get? (parseSection (KW.cls renNew) 9 py!"Main" true true (Obj.fresh (KW.cls renNew) ())).2.data py!"Main" =
      Dict.get? (parseSection (KW.cls renOld) 9 py!"A" true true (Obj.fresh (KW.cls renOld) ())).2.data py!"A" :=
  ⟨by decide +kernel,
    (C84_parse ren_renamed (r := py!"A") (base_nameBlind _) (by decide +kernel) (by decide +kernel) (n := 9) (by decide +kernel)
      (by decide +kernel) (i := true) (f := true) (fun _ h => absurd h (by decide +kernel)) (Obj.fresh (KW.cls renOld) ())
      (Obj.fresh (KW.cls renNew) ()) (fun _ => rfl) rfl rfl).2.2.2.2 py!"A"⟩

end CPE.Props
