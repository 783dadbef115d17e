import Verif.Proofs.Rebind
/-
C80: which dict a handler finds in `handler_parameters.data_shared`, and which one `parse_section` returns.
-/
namespace CPE.Rb
open CPE CPE.Spec CPE.Rb.Spec
variable {δ ω : Type} {E : Env δ ω} {n : Nat} {s : Str} {i f : Bool} {o : Obj δ ω}

/-! ### A class and a file -/

namespace Example

/-- `data_shared` is the number of a dict, here a list of words; `ω` holds what is in the dicts. `note x` writes `x` into
the dict it is given. -/
def note : Handler Nat (List (List Str)) where
  decorated := true
  run c d o := (.ok (.int 0), d, o.modify d (· ++ [joinStr [' '] c.params]))

/-- Binds a new dict to `data_shared`. -/
def renew : Handler Nat (List (List Str)) where
  decorated := true
  run _ _ o := (.ok (.int 0), o.length, o ++ [[]])

/-- A hook that writes a word into the dict it is given and binds a new dict. -/
def hook (word : Str) : Handler Nat (List (List Str)) where
  decorated := false
  run _ d o := (.ok .notInt, o.length, o.modify d (· ++ [word]) ++ [[]])

/--
```
[DEFAULT]
note d1
renew d
note d2
[A]
note a1
use B
note a2
renew a
note a3
use B again
note a4
[B]
note b1
renew b
note b2
[C]
use A
note c1
```
-/
def cfg : Cfg where
  sections :=
    [(py!"DEFAULT", [(py!"note d1", none), (py!"renew d", none), (py!"note d2", none)]),
     (py!"A", [(py!"note a1", none), (py!"use B", none), (py!"note a2", none), (py!"renew a", none), (py!"note a3", none),
        (py!"use B again", none), (py!"note a4", none)]),
     (py!"B", [(py!"note b1", none), (py!"renew b", none), (py!"note b2", none)]),
     (py!"C", [(py!"use A", none), (py!"note c1", none)])]

/-- The class; the new dict of a parse is number 0. -/
def env : Env Nat (List (List Str)) where
  cfg := cfg
  hookInit := hook py!"init"
  hookFinal := hook py!"final"
  pub op := if op = py!"note" then some note else if op = py!"renew" then some renew else none
  priv op := if op = py!"use" then some .use else none
  emptyShared := 0

/-- A class without `renew`, whose hooks write a word only. -/
def quiet : Env Nat (List (List Str)) :=
  { env with hookInit := note, hookFinal := note, pub := fun op => if op = py!"note" then some note else none }

/-- A new object, with one empty dict. -/
def o0 : Obj Nat (List (List Str)) := Obj.fresh env [[]]

end Example

/-! ### Theorems -/

/-- C80: for every class, file, object and section, `parse_section` does what the specification says, which leaves nothing
open: the data, the attributes, the notices, and the dict it returns and remembers. (`hd` excludes the files on which the
parse does not end, see C03.) -/
theorem _root_.CPE.Props.C80_parse (hs : s ≠ []) (hn : E.cfg.sectionNames.length + 3 ≤ n)
    (hd : i = true → E.cfg.hasSection E.defaultName = true → s = E.defaultName ∨ ¬ Reaches E E.defaultName s) :
    let start : Core δ ω := { o.toCore with shared := E.emptyShared, checked := setAdd o.checked s }
    ∃ r c', Parses E s i f start r c' ∧ (∀ r2 c2, Parses E s i f start r2 c2 → r2 = r ∧ c2 = c') ∧
      (parseSection E n s i f o).2.toCore = c' ∧
      match r with
      | none => (parseSection E n s i f o).1 = .ok c'.shared ∧ (parseSection E n s i f o).2.lastResult = some c'.shared
      | some e => (parseSection E n s i f o).1 = .exc e ∧ (parseSection E n s i f o).2.lastResult = o.lastResult := by
  intro start
  have key : ∀ r c', Parses E s i f start r c' →
      (parseR E n s s i f { toCore := start, processed := [], log := [] }).1 = outcomeV () r ∧
      (parseR E n s s i f { toCore := start, processed := [], log := [] }).2.toCore = c' := by
    intro r c' h
    have := hitsParse hn hd h { toCore := start, processed := [], log := [] } (by simp) rfl
    exact ⟨this.1, this.2.1⟩
  obtain ⟨r, c', h⟩ := parses_total E s i f start
  refine ⟨r, c', h, fun r2 c2 h2 => ?_, ?_⟩
  · have h3 := (key r2 c2 h2).1.symm.trans (key r c' h).1
    refine ⟨?_, (key r2 c2 h2).2.symm.trans (key r c' h).2⟩
    cases r <;> cases r2 <;> cases h3 <;> rfl
  · rw [parseSection_apply E n hs]
    obtain ⟨h1, h2⟩ := key r c' h
    change (parseR E n s s i f { toCore := startCore E s o.toCore, processed := [], log := [] }).1 = _ at h1
    change (parseR E n s s i f { toCore := startCore E s o.toCore, processed := [], log := [] }).2.toCore = _ at h2
    cases hp : parseR E n s s i f { toCore := startCore E s o.toCore, processed := [], log := [] } with
    | mk x w' =>
      rw [hp] at h1 h2
      dsimp only at h1 h2
      subst h1 h2
      cases r <;> exact ⟨rfl, rfl, rfl⟩

example : Example.env.cfg.sectionNames.length + 3 ≤ 12 := by decide

-- `A` writes a1, a2 into dict 0, which `B` shares until it binds its own (3, and 5 below 4); the parse returns dict 4
example : (parseSection Example.env 12 py!"A" true true Example.o0).1 = .ok 4 ∧
    (parseSection Example.env 12 py!"A" true true Example.o0).2.self =
      [[py!"init", py!"d1", py!"a1", py!"b1", py!"a2"], [], [py!"d2"], [py!"b2"], [py!"a3", py!"b1", py!"a4", py!"final"],
       [py!"b2"], []] := by
  decide +kernel

-- used by `C`, the same section leaves no trace in what is returned
example : (parseSection Example.env 12 py!"C" true true Example.o0).1 = .ok 0 ∧
    (parseSection Example.env 12 py!"C" true true Example.o0).2.self =
      [[py!"init", py!"d1", py!"a1", py!"b1", py!"a2", py!"c1", py!"final"], [], [py!"d2"], [py!"b2"],
       [py!"a3", py!"b1", py!"a4"], [py!"b2"], []] := by
  decide +kernel

/-- C80: a section whose own options bind no other dict gets the dict the parse began with, whatever the handlers of the
sections it uses, those of DEFAULT and the two hooks bind. -/
theorem _root_.CPE.Props.C80_own (hk : OwnKeep E s s) (hs : s ≠ []) (hn : E.cfg.sectionNames.length + 3 ≤ n)
    (hd : i = true → E.cfg.hasSection E.defaultName = true → s = E.defaultName ∨ ¬ Reaches E E.defaultName s) {d : δ}
    (h : (parseSection E n s i f o).1 = .ok d) : d = E.emptyShared := by
  obtain ⟨r, c', h1, _, _, h2⟩ := Props.C80_parse (f := f) (o := o) hs hn hd
  cases r with
  | some e => rw [h2.1] at h; cases h
  | none =>
    have := parses_keep h1 hk
    rw [h2.1] at h
    cases h
    exact this

theorem Example.c_keeps : OwnKeep Example.env py!"C" py!"C" := by
  intro keys k evs h hc ho hk hm hin
  have h1 : Example.env.cfg.optionNames py!"C" = some [py!"use A", py!"note c1"] := by rfl
  rw [h1] at ho
  cases ho
  rcases List.mem_cons.mp hk with rfl | hk
  · have : meaning Example.env py!"C" py!"C" py!"use A" = .link py!"A" := by rfl
    rw [this] at hm; cases hm
  · rw [List.mem_singleton] at hk
    subst hk
    have : ∃ x, meaning Example.env py!"C" py!"C" py!"note c1" = .events [.call Example.note x] := ⟨_, rfl⟩
    obtain ⟨x, hx⟩ := this
    rw [hx] at hm
    cases hm
    rw [List.mem_singleton] at hin
    cases hin
    exact fun _ _ _ => rfl

example {d : Nat} (h : (parseSection Example.env 12 py!"C" false true Example.o0).1 = .ok d) : d = 0 :=
  Props.C80_own Example.c_keeps (by decide) (by decide) (by simp) h

/-- C80: if no handler of the class binds another dict, there is only one: every handler of the parse, at any depth, is
called with the dict the parse began with, and `parse_section` returns that dict; it does all that C01 and the other
properties of a parse say. -/
theorem _root_.CPE.Props.C80_one_dict (hE : AllKeep E) :
    parseSection E n s i f o = CPE.parseSection E n s i f o ∧
    (∀ d, (parseSection E n s i f o).1 = .ok d → d = E.emptyShared) ∧
    ∀ evs done rest, ParseTrace E s i f evs → evs = done ++ rest →
      (replay E s done { o.toCore with shared := E.emptyShared, checked := setAdd o.checked s }).2.shared = E.emptyShared := by
  have heq : parseSection E n s i f o = CPE.parseSection E n s i f o := by
    by_cases hs : s = []
    · subst hs; exact (parseSection_nil E n i f o).trans (CPE.parseSection_nil E n i f o).symm
    · rw [parseSection_apply E n hs, CPE.parseSection_apply E n hs, (parseR_keeps (root := s) hE n s i f).1]
      rfl
  refine ⟨heq, fun d h => ?_, ?_⟩
  · rw [heq] at h
    by_cases hs : s = []
    · subst hs; rw [CPE.parseSection_nil] at h; cases h
    · rw [CPE.parseSection_apply E n hs] at h
      have hk := (parseR_keeps (E := E) (root := s) hE n s i f).2 { toCore := startCore E s o.toCore, processed := [], log := [] }
      cases hp : CPE.parseR E n s s i f { toCore := startCore E s o.toCore, processed := [], log := [] } with
      | mk x w' =>
        rw [hp] at h hk
        cases x with
        | ok u => cases h; exact hk
        | exc e => cases h
        | diverge => cases h
  · rintro evs done rest ht rfl
    exact events_keep (E := E) (root := s) (evs := done) (c := startCore E s o.toCore)
      (r := (replay E s done (startCore E s o.toCore)).1) (c' := (replay E s done (startCore E s o.toCore)).2)
      (fun g hc h => trace_keeps hE ht g hc (List.mem_append_left _ h)) rfl

theorem Example.note_keeps : Keeps Example.note := fun _ _ _ => rfl

example : AllKeep Example.quiet := by
  refine ⟨Example.note_keeps, Example.note_keeps, fun op h hp => ?_, fun op h hp => ?_⟩
  · by_cases ho : op = py!"note"
    · exact (show some Example.note = some h from (if_pos ho).symm.trans hp) |> Option.some.inj |> fun e => e ▸ Example.note_keeps
    · exact absurd ((if_neg ho).symm.trans hp) (by simp)
  · by_cases ho : op = py!"use"
    · exact absurd ((if_pos ho).symm.trans hp) (by simp)
    · exact absurd ((if_neg ho).symm.trans hp) (by simp)

-- without `renew`, the options of that name are ordinary options, and all notes are in one dict
example : (parseSection Example.quiet 12 py!"A" true true Example.o0).1 = .ok 0 ∧
    (parseSection Example.quiet 12 py!"A" true true Example.o0).2.self =
      [[[], py!"d1", py!"d2", py!"a1", py!"b1", py!"b2", py!"a2", py!"a3", py!"b1", py!"b2", py!"a4", []]] := by
  decide +kernel

end CPE.Rb
