import Verif.Model.EnhancedData
/-
A small class and file used to show that the hypotheses of the theorems are met by real cases: a cyclic
`use` graph, a DEFAULT section, one public handler, and a section that uses a missing one.
-/
namespace CPE.Example

/-- `handler_set_var`: appends "section/param" to the shared list. -/
def setVar : Handler (List Str) Unit where
  decorated := true
  run c d o := (.ok (.int 0), d ++ [c.sectionName ++ ['/'] ++ joinStr [' '] c.params], o)

/-- A hook that appends a mark. -/
def hook (mark : Str) : Handler (List Str) Unit where
  decorated := true
  run _ d o := (.ok (.int 0), d ++ [mark], o)

/--
```
[DEFAULT]
base: 0
key 1: dflt
[A]
use B:
key 1: "v"
set-var foo: bar
[B]
use 'C':
key 2: 2
[C]
use A:
key 3
[D]
key 4: 4
use MISSING:
key 5: 5
[H]
set_var only: x
```
-/
def cfg : Cfg where
  sections :=
    [(py!"DEFAULT", [(py!"base", some py!"0"), (py!"key 1", some py!"dflt")]),
     (py!"A", [(py!"use B", some []), (py!"key 1", some py!"\"v\""), (py!"set-var foo", some py!"bar")]),
     (py!"B", [(py!"use 'C'", some []), (py!"key 2", some py!"2")]),
     (py!"C", [(py!"use A", some []), (py!"key 3", none)]),
     (py!"D", [(py!"key 4", some py!"4"), (py!"use MISSING", some []), (py!"key 5", some py!"5")]),
     (py!"H", [(py!"set_var only", some py!"x")])]

/-- The class of the example: `handler_set_var`, two hooks, and the built-in `use`. -/
def env : Env (List Str) Unit where
  cfg := cfg
  hookInit := hook py!"init"
  hookFinal := hook py!"final"
  pub op := if op = py!"set_var" then some setVar else none
  priv op := if op = py!"use" then some .use else none
  emptyShared := []

/-- A new object. -/
def o0 : Obj (List Str) Unit := Obj.fresh env ()

/-- The object after `parse_section("A")`. -/
def oA : Obj (List Str) Unit := (parseSection env 12 py!"A" true true o0).2

/-- `parse_section("A")` succeeds, ... -/
theorem parse_A : (parseSection env 12 py!"A" true true o0).1 = .ok [py!"init", py!"A/foo", py!"final"] := by rfl

/-- ... merges DEFAULT, B, C and A, and skips the cycle with a notice. -/
theorem data_A : Dict.get? oA.data py!"A" =
    some [(py!"base", some py!"0"), (py!"key 1", some py!"v"), (py!"key 3", none), (py!"key 2", some py!"2")] := by rfl

/-- All the data after the parse of A, written out. -/
def dataA : Dict Str Options :=
  [(py!"DEFAULT", []),
   (py!"A", [(py!"base", some py!"0"), (py!"key 1", some py!"v"), (py!"key 3", none), (py!"key 2", some py!"2")]),
   (py!"B", []), (py!"C", [])]

theorem oA_data : oA.data = dataA := by rfl

theorem out_A : oA.out = [⟨.warning, .valueError, false⟩] := by rfl

/-- `parse_section("D")` raises KeyError after having stored `key 4`. -/
theorem parse_D : (parseSection env 12 py!"D" true true o0).1 = .exc .keyError := by rfl

theorem data_D : Dict.get? (parseSection env 12 py!"D" true true o0).2.data py!"D" =
    some [(py!"base", some py!"0"), (py!"key 1", some py!"dflt"), (py!"key 4", some py!"4")] := by rfl

/-- The same class with level 5. -/
def env5 : Env (List Str) Unit := { env with level := 5 }

theorem parse_A5 : (parseSection env5 12 py!"A" true true o0).1 = .exc .valueError := by rfl

/-- The same file with a DEFAULT section that uses A. -/
def envLoop : Env (List Str) Unit :=
  { env with cfg := { cfg with sections := Dict.set cfg.sections py!"DEFAULT" [(py!"base", some py!"0"), (py!"use A", some [])] } }

end CPE.Example
