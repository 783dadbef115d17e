import Verif.Props.Example
import Verif.Proofs.ConsoleTrace
import Verif.Proofs.ConsoleNotices
/-
C79: what a parse prints.
-/
namespace CPE.Props
open CPE.Spec hiding ParseTrace
open Con.Spec
variable {δ ω : Type} {E : Env δ ω} {P : Con.Printer δ} {n : Nat} {s : Str} {i f : Bool} {o : Obj δ ω} {l : List Con.Printed}

/-- C79: what is printed has no influence: result and object are those of `parse_section`, whatever has been printed before,
at every debug level and however Python shows the data. -/
theorem C79_only_prints :
    (Con.parseSection E P n s i f (o.toWorld, l)).1 = (parseSection E n s i f o).1 ∧
    (Con.parseSection E P n s i f (o.toWorld, l)).2.1 = (parseSection E n s i f o).2.toWorld :=
  Con.parseSection_erases n s i f o l

/-- C79: every parse has exactly one trace. -/
theorem C79_one_trace (E : Env δ ω) (P : Con.Printer δ) (s : Str) (i f : Bool) :
    ∃ its, ParseTrace E P s i f its ∧ ∀ its', ParseTrace E P s i f its' → its' = its := by
  obtain ⟨its, h⟩ := Con.parseTrace_total E P s i f
  exact ⟨its, h, fun _ h' => Con.parseTrace_det h' h⟩

/-- C79: a parse, successful or not, prints the banner START, then what its trace prescribes up to the step at which it
fails, then, if it does not fail, the banner FINISH. -/
theorem C79_exact (hs : s ≠ []) {its : List (Item δ ω)} (ht : ParseTrace E P s i f its)
    (hn : E.cfg.sectionNames.length + 3 ≤ n)
    (hd : i = true → E.cfg.hasSection E.defaultName = true → s = E.defaultName ∨ ¬ Reaches E E.defaultName s) :
    let run := play E P s its { o.toCore with shared := E.emptyShared, checked := setAdd o.checked s }
    (Con.parseSection E P n s i f (o.toWorld, l)).2.2 =
      l ++ printed E.debug (banner s py!"START") ++ run.2.2 ++
        (if run.1 = none then printed E.debug (banner s py!"FINISH") else []) :=
  Con.parseSection_prints hs ht hn hd o.toWorld l

/-- C79: the empty name is refused after the banner. -/
theorem C79_empty :
    Con.parseSection E P n [] i f (o.toWorld, l) =
      (.exc .valueError, { o.toWorld with log := [] }, l ++ printed E.debug (banner [] py!"START")) := by
  unfold Con.parseSection Con.sayBanner
  have hm1 : Con.lift (M.modify fun w : World δ ω => { w with log := [] }) (o.toWorld, l) = (.ok (), { o.toWorld with log := [] }, l) := by
    simp [Con.lift, M.modify_apply]
  rw [M.bind_ok hm1, M.bind_assoc, Con.say_bind E Nat.one_pos, M.bind_assoc, Con.say_bind E Nat.one_pos, Con.say_bind E Nat.one_pos,
    List.append_assoc l, ← Con.printed_append, List.append_assoc l, ← Con.printed_append]
  rfl

/-- C79: a lower debug level prints what a higher one prints, without the lines above it. -/
theorem C79_levels {d : Nat} (hd : d ≤ E.debug) :
    (Con.parseSection { E with debug := d } P n s i f (o.toWorld, [])).2.2 =
      (Con.parseSection E P n s i f (o.toWorld, [])).2.2.filter (allowed d) :=
  (Con.two_parseSection (P := P) hd n s i f (o.toWorld, []) (o.toWorld, []) ⟨⟨rfl, rfl, rfl, rfl, rfl, fun _ => rfl⟩, rfl⟩
    (fun h => by cases h)).2.2

/-- C79: what was printed stays; what is added are the event notices of the parse, in their order, and lines whose level is
at least one and at most the debug level. -/
theorem C79_notices : ∃ new, (Con.parseSection E P n s i f (o.toWorld, l)).2.2 = l ++ new ∧
    (parseSection E n s i f o).2.out = o.out ++ noticesOf new ∧
    ∀ k t, Con.Printed.debug k t ∈ new → 1 ≤ k ∧ k ≤ E.debug := by
  obtain ⟨q, h1, h2, h3⟩ := Con.Adds.parseSection (E := E) (P := P) n s i f o.toWorld l
  refine ⟨q, h2, ?_, h3⟩
  rw [(Con.parseSection_erases n s i f o l).2] at h1
  exact h1

/-- C79: at debug level zero nothing is printed but the event notices. -/
theorem C79_quiet (h0 : E.debug = 0) : ∃ notices, (parseSection E n s i f o).2.out = o.out ++ notices ∧
    (Con.parseSection E P n s i f (o.toWorld, l)).2.2 = l ++ notices.map .notice := by
  obtain ⟨q, h1, h2, h3⟩ := C79_notices (E := E) (P := P) (n := n) (s := s) (i := i) (f := f) (o := o) (l := l)
  refine ⟨noticesOf q, h2, ?_⟩
  rw [h1]
  congr 1
  clear h1 h2
  induction q with
  | nil => rfl
  | cons x q ih =>
    have := ih fun k t h => h3 k t (by simp [h])
    cases x with
    | debug k t =>
      have := h3 k t (by simp)
      omega
    | notice m => exact congrArg (.notice m :: ·) this

/-! ### A concrete case -/

/-- Python's `repr` for the strings of the example, the shared data as their number, the open sections by name. -/
def conPrinter : Con.Printer (List Str) where
  repr x := py!"'" ++ x ++ py!"'"
  shared d := (toString d.length).toList
  internal p := joinStr py!"," p

def envTrace (d : Nat) : Env (List Str) Unit := { Example.env with debug := d }

/-- Level and text of the lines, level zero for notices. -/
def shows (l : List Con.Printed) : List (Nat × Str) :=
  l.map fun x => match x with | .debug k t => (k, t) | .notice _ => (0, [])

/-- The trace of a parse with both hooks and a DEFAULT section at level one. -/
example : shows (Con.parseSection (envTrace 1) conPrinter 12 py!"H" true true (Example.o0.toWorld, [])).2.2 =
    [
      (1, py!"[D-1] [----------------------------------------------------------]\n"),
      (1, py!"[D-1]   Parse section `H` START\n"),
      (1, py!"[D-1] [----------------------------------------------------------]\n"),
      (1, py!"[D-1] Enter handler    : handler_initialize\n"),
      (1, py!"[D-1]  -> raw_option   : (None, None)\n"),
      (1, py!"[D-1] Exit handler     : handler_initialize\n"),
      (1, py!"[D-1]  -> raw_option   : (None, None)\n"),
      (1, py!"[D-1] >>> Enter section    : `DEFAULT`\n"),
      (1, py!"[D-1] Enter handler    : _generic_option_handler\n"),
      (1, py!"[D-1]  -> raw_option   : ('base', '0')\n"),
      (1, py!"[D-1] Exit handler     : _generic_option_handler\n"),
      (1, py!"[D-1]  -> raw_option   : ('base', '0')\n"),
      (1, py!"[D-1] Enter handler    : _generic_option_handler\n"),
      (1, py!"[D-1]  -> raw_option   : ('key 1', 'dflt')\n"),
      (1, py!"[D-1] Exit handler     : _generic_option_handler\n"),
      (1, py!"[D-1]  -> raw_option   : ('key 1', 'dflt')\n"),
      (1, py!"[D-1] Exit section: `DEFAULT`\n"),
      (1, py!"[D-1] >>> Enter section    : `H`\n"),
      (1, py!"[D-1] Enter handler    : handler_set_var\n"),
      (1, py!"[D-1]  -> raw_option   : ('set_var only', 'x')\n"),
      (1, py!"[D-1] Exit handler     : handler_set_var\n"),
      (1, py!"[D-1]  -> raw_option   : ('set_var only', 'x')\n"),
      (1, py!"[D-1] Enter handler    : handler_finalize\n"),
      (1, py!"[D-1]  -> raw_option   : (None, None)\n"),
      (1, py!"[D-1] Exit handler     : handler_finalize\n"),
      (1, py!"[D-1]  -> raw_option   : (None, None)\n"),
      (1, py!"[D-1] Exit section: `H`\n"),
      (1, py!"[D-1] [----------------------------------------------------------]\n"),
      (1, py!"[D-1]   Parse section `H` FINISH\n"),
      (1, py!"[D-1] [----------------------------------------------------------]\n")] := by decide +kernel

/-- The last lines of a parse that fails, at level five: the missing section is the last one named, there is no banner. -/
example : (shows (Con.parseSection (envTrace 5) conPrinter 12 py!"D" false false (Example.o0.toWorld, [])).2.2).drop 23 =
    [
      (4, py!"[D-4]  -> data_internal: D\n"),
      (2, py!"[D-2] _check_handler_rval(_generic_option_handler, 0)\n"),
      (2, py!"[D-2] ==>\n"),
      (2, py!"[D-2] ==> Entry        : `use MISSING` : ``\n"),
      (2, py!"[D-2] ==>\n"),
      (2, py!"[D-2]  -> op           : use\n"),
      (2, py!"[D-2]  -> params       : ['MISSING']\n"),
      (2, py!"[D-2]  -> value        : \n"),
      (5, py!"[D-5]  -> Class method `handler_use` was not found.\n"),
      (4, py!"[D-4]  -> Using _private_ handler: `_handler_use`\n"),
      (1, py!"[D-1] Enter handler    : _handler_use\n"),
      (1, py!"[D-1]  -> raw_option   : ('use MISSING', '')\n"),
      (2, py!"[D-2]  -> op           : use\n"),
      (2, py!"[D-2]  -> params       : ['MISSING']\n"),
      (2, py!"[D-2]  -> value        : \n"),
      (3, py!"[D-3]  -> data_shared  : 0\n"),
      (4, py!"[D-4]  -> data_internal: D\n"),
      (1, py!"[D-1] >>> Enter section    : `MISSING`\n")] := by decide +kernel

/-- A notice stands where the event took place: when section `C` uses section `A` again. -/
example : ((shows (Con.parseSection (envTrace 1) conPrinter 12 py!"A" false false (Example.o0.toWorld, [])).2.2).drop 9).take 5 = [
      (1, py!"[D-1] >>> Enter section    : `C`\n"),
      (1, py!"[D-1] Enter handler    : _handler_use\n"),
      (1, py!"[D-1]  -> raw_option   : ('use A', '')\n"),
      (0, []),
      (1, py!"[D-1] Exit handler     : _handler_use\n")] := by decide +kernel

/-- The hypotheses of `C79_exact` are met with the hooks and the DEFAULT section. -/
example : ∃ its, ParseTrace (envTrace 5) conPrinter py!"DEFAULT" true true its ∧
    (envTrace 5).cfg.sectionNames.length + 3 ≤ 12 ∧ (envTrace 5).cfg.hasSection (envTrace 5).defaultName = true ∧
    py!"DEFAULT" = (envTrace 5).defaultName :=
  have ⟨its, h, _⟩ := C79_one_trace (envTrace 5) conPrinter py!"DEFAULT" true true
  ⟨its, h, by decide +kernel⟩

/-- `C79_levels` from five to one: 30 of 96 lines. -/
example : (Con.parseSection (envTrace 5) conPrinter 12 py!"H" true true (Example.o0.toWorld, [])).2.2.length = 96 ∧
    ((Con.parseSection (envTrace 5) conPrinter 12 py!"H" true true (Example.o0.toWorld, [])).2.2.filter (allowed 1)).length = 30 := by
  decide +kernel

/-- `C79_quiet`: the notice of the cycle is all there is. -/
example : (Con.parseSection (envTrace 0) conPrinter 12 py!"A" false false (Example.o0.toWorld, [])).2.2.length = 1 := by decide +kernel
end CPE.Props
