import Verif.Proofs.Quiet
import Verif.Props.Life
import Verif.Props.Example
/-
What is printed: notices only where the settings allow them (C17), and none while a text is unrolled (C28).
-/
namespace CPE.Props
open Spec
variable {δ ω : Type} {K : Env δ ω} {n : Nat} {f : Full δ ω}

/-- The level from which on an event raises, as in the documentation of `exception_control_level`. -/
def raisingLevel : Event → Nat
  | .silent => 5
  | .warning => 5
  | .minor => 4
  | .serious => 3
  | .critical => 2
  | .catastrophic => 0

/-- C17: all that any history of operations prints are notices of events other than SILENT, at a positive level at which
the event does not raise, while warnings are not silenced, in the form that the compact flag asks for. -/
theorem C17_notices (E : Env δ ω) (n : Nat) (ops : List EdOp) (o : Obj δ ω) :
    ∃ l, (EdOp.run E n ops o).out = o.out ++ l ∧ ∀ x ∈ l, 0 < E.level ∧ E.level < raisingLevel x.event ∧
      E.silentWarnings = false ∧ x.event ≠ .silent ∧ x.compact = E.compactWarnings := by
  obtain ⟨l, h1, h2⟩ := (prints_inv E n o.out).run ops (fun _ _ _ _ => trivial) o ⟨[], (List.append_nil _).symm, by simp⟩
  refine ⟨l, h1, fun x hx => ?_⟩
  obtain ⟨h3, h4, h5⟩ := h2 x hx
  have : x.event.levelReq = raisingLevel x.event := by cases x.event <;> rfl
  exact ⟨h3, this ▸ h4, h5⟩

/-- C17: at level 0, and with `exception_control_silent_warnings`, nothing is ever printed. -/
theorem C17_silence (E : Env δ ω) (hq : E.level = 0 ∨ E.silentWarnings = true) (n : Nat) (ops : List EdOp) (o : Obj δ ω) :
    (EdOp.run E n ops o).out = o.out := by
  obtain ⟨l, h1, h2⟩ := C17_notices E n ops o
  cases l with
  | nil => rw [h1, List.append_nil]
  | cons x l =>
    obtain ⟨h3, _, h4, _⟩ := h2 x List.mem_cons_self
    rcases hq with hq | hq
    · omega
    · rw [hq] at h4; cases h4

/-- C28: with `use_base_class_parser=False` the level of the object has no influence on the work: text, exception and
all that is stored, printed and logged are those of the same object at level 0. -/
theorem C28_as_at_level_zero (fs : FS) (sec : Option Str) (space : Bool) (f : Full δ ω) :
    ((FOp.unroll sec space false).exec K n fs f).1 = ((FOp.unroll sec space false).exec K n fs { f with level := 0 }).1 ∧
    ((FOp.unroll sec space false).exec K n fs f).2.obj = ((FOp.unroll sec space false).exec K n fs { f with level := 0 }).2.obj ∧
    ((FOp.unroll sec space false).exec K n fs f).2.cfg = ((FOp.unroll sec space false).exec K n fs { f with level := 0 }).2.cfg := by
  simp only [FOp.exec, Full.unroll, Bool.false_eq_true, if_false, Full.unrollSelf]
  rcases Full.configdata fs { f with level := 0 } with ⟨c | e | _, f1⟩
  · dsimp only
    rcases unrollBody (f1.env K c) n sec space f1.obj with ⟨t | e | _, o⟩ <;> exact ⟨rfl, rfl, rfl⟩
  · exact ⟨rfl, rfl, rfl⟩
  · exact ⟨rfl, rfl, rfl⟩

theorem keeps_genSection {E : Env δ ω} {A : Str → Bool → Bool → Prop} {P : Obj δ ω → Prop} (hP : ObjInv E n A P) (d s : Str) :
    Keeps P (genSection E n d s) := by
  refine (hP.hasSection s).bind fun b => ?_
  split
  · exact (hP.options s).bind fun _ => .same fun _ => rfl
  · exact .same fun _ => rfl

theorem keeps_unrollBody {E : Env δ ω} {A : Str → Bool → Bool → Prop} {P : Obj δ ω → Prop} (hP : ObjInv E n A P) (sec : Option Str)
    (space : Bool) : Keeps P (unrollBody E n sec space) := by
  have all : ∀ (d : Str) ss, Keeps P (genAll E n d ss) := by
    intro d ss
    induction ss with
    | nil => exact .same fun _ => rfl
    | cons s ss ih => exact (keeps_genSection hP d s).bind fun _ => ih.bind fun _ => .same fun _ => rfl
  unfold unrollBody
  cases sec with
  | none => exact (all _ _).bind fun _ => .same fun _ => rfl
  | some s => exact (keeps_genSection hP _ s).bind fun _ => .same fun _ => rfl

/-- C28: `unroll_to_str` prints nothing, whatever the level of the object, cycles included. -/
theorem C28_prints_nothing (fs : FS) (sec : Option Str) (space base : Bool) (f : Full δ ω) :
    ((FOp.unroll sec space base).exec K n fs f).2.obj.out = f.obj.out := by
  cases base with
  | true => rw [C28_base_class_unroll]
  | false =>
    have hcd : (Full.configdata fs { f with level := 0 }).2.obj = f.obj ∧ (Full.configdata fs { f with level := 0 }).2.level = 0 := by
      unfold Full.configdata
      cases f.cfg <;> exact ⟨rfl, rfl⟩
    simp only [FOp.exec, Full.unroll, Bool.false_eq_true, if_false, Full.unrollSelf]
    rcases hx : Full.configdata fs { f with level := 0 } with ⟨c | e | _, f1⟩ <;> rw [hx] at hcd <;> obtain ⟨h1, h2⟩ := hcd <;>
      dsimp only at h1 h2
    · obtain ⟨l, h3, h4⟩ := keeps_unrollBody (prints_inv (f1.env K c) n f1.obj.out) sec space f1.obj ⟨[], (List.append_nil _).symm, by simp⟩
      have : l = [] := by
        cases l with
        | nil => rfl
        | cons x l =>
          have := (h4 x List.mem_cons_self).1
          rw [show (f1.env K c).level = f1.level from rfl, h2] at this
          omega
      rw [this, List.append_nil, h1] at h3
      dsimp only
      rw [h1]
      rcases hy : unrollBody (f1.env K c) n sec space f.obj with ⟨t | e | _, o⟩ <;> rw [hy] at h3 <;> exact h3
    · dsimp only; rw [h1]
    · dsimp only; rw [h1]

/-- Section A of the example has a cycle: a notice at level 4 and none at level 0 or with silenced warnings. -/
example : (EdOp.run Example.env 12 [.get py!"A"] Example.o0).out = [⟨.warning, .valueError, false⟩] ∧
    (EdOp.run { Example.env with level := 0 } 12 [.get py!"A"] Example.o0).out = [] ∧
    (EdOp.run { Example.env with silentWarnings := true } 12 [.get py!"A"] Example.o0).out = [] := by decide +kernel

end CPE.Props
