import Verif.Props.Handlers
import Verif.Proofs.Chronicle
/-
C16, C17, C33, C34: the debug log, and what a parse does not depend on.
-/
namespace CPE.Props
open Spec
variable {δ ω : Type} {E : Env δ ω} {n : Nat} {s : Str} {i f : Bool} {o o' : Obj δ ω} {r : δ}

/-! ### C16 -/

/-- C16: with a positive debug level, the log of a successful `parse_section(s)` is well nested; it begins with
the records of `handler_initialize` (if that is decorated), and the records of the root section close it. -/
theorem C16_log_is_nested (hdbg : 0 < E.debug) (h : parseSection E n s true f o = (.ok r, o')) :
    ∃ i j, Nested i ∧ Nested j ∧
      o'.log = (if E.hookInit.decorated = true then
          [.handlerEntry py!"handler_initialize" none none, .handlerExit py!"handler_initialize" none none] else []) ++
        i ++ .sectionEntry s :: j ++ [.sectionExit s] := by
  by_cases hs : s = []
  · subst hs; cases h
  · rw [parseSection_apply E n hs] at h
    cases hp : parseR E n s s true f { toCore := startCore E s o.toCore, processed := [], log := [] } with
    | mk x w' =>
      rw [hp] at h
      cases x with
      | ok u =>
        cases h
        obtain ⟨l, h1, a, b, ha, hb, rfl⟩ := Logs.root hdbg n s f _ _ _ hp
        exact ⟨a, b, ha, hb, h1⟩
      | exc e => cases h
      | diverge => cases h

/-- C16: the log of a successful parse without `initialize` is nested as well. -/
theorem C16_log_is_nested_noinit (hdbg : 0 < E.debug) (h : parseSection E n s i f o = (.ok r, o')) : Nested o'.log := by
  by_cases hs : s = []
  · subst hs; cases h
  · rw [parseSection_apply E n hs] at h
    cases hp : parseR E n s s i f { toCore := startCore E s o.toCore, processed := [], log := [] } with
    | mk x w' =>
      rw [hp] at h
      cases x with
      | ok u =>
        cases h
        obtain ⟨l, h1, hl⟩ := Logs.parseR hdbg n s s i f _ _ _ hp
        rw [h1]; exact hl
      | exc e => cases h
      | diverge => cases h

/-- How many more sections than were closed does the log open (`none`: a wrong exit)? A stack of open sections. -/
def openSections : List LogEntry → List Str → Option (List Str)
  | [], st => some st
  | .sectionEntry s :: l, st => openSections l (s :: st)
  | .sectionExit s :: l, st => match st with
    | t :: st => if s = t then openSections l st else none
    | [] => none
  | _ :: l, st => openSections l st

theorem openSections_append (a b : List LogEntry) (st : List Str) :
    openSections (a ++ b) st = (openSections a st).bind (openSections b) := by
  induction a generalizing st with
  | nil => rfl
  | cons e a ih =>
    cases e with
    | sectionEntry s => exact ih _
    | sectionExit s =>
      cases st with
      | nil => rfl
      | cons t st =>
        simp only [List.cons_append, openSections]
        split
        · exact ih _
        · rfl
    | keyValue => exact ih _
    | operation => exact ih _
    | handlerEntry => exact ih _
    | handlerExit => exact ih _
    | cycleDetected => exact ih _

/-- C16: being nested means that reading the log with a stack closes every section in LIFO order and ends with
the stack it began with. -/
theorem C16_nested_is_lifo {l : List LogEntry} (h : Nested l) (st : List Str) : openSections l st = some st := by
  induction h generalizing st with
  | nil => rfl
  | append _ _ iha ihb => rw [openSections_append, iha]; exact ihb st
  | keyValue => rfl
  | operation => rfl
  | inSection s _ ih =>
    rw [List.cons_append]
    simp only [openSections]
    rw [openSections_append, ih]
    simp [openSections]
  | inHandler n k v _ ih =>
    rw [List.cons_append]
    simp only [openSections]
    rw [openSections_append, ih]
    rfl
  | cycle => rfl

/-- The class of the example with debug level 1. -/
def envDebug : Env (List Str) Unit := { Example.env with debug := 1 }

/-- Its log for section B: the sections B, C, A are opened and closed, the cycle is recorded. -/
example : (parseSection envDebug 12 py!"B" false false Example.o0).2.log =
    [.sectionEntry py!"B", .keyValue py!"use 'C'" (some []), .operation py!"use" [py!"C"],
      .handlerEntry py!"_handler_use" (some py!"use 'C'") (some []),
       .sectionEntry py!"C", .keyValue py!"use A" (some []), .operation py!"use" [py!"A"],
        .handlerEntry py!"_handler_use" (some py!"use A") (some []),
         .sectionEntry py!"A", .keyValue py!"use B" (some []), .operation py!"use" [py!"B"],
          .handlerEntry py!"_handler_use" (some py!"use B") (some []),
           .cycleDetected py!"A" py!"use",
          .handlerExit py!"_handler_use" (some py!"use B") (some []),
          .handlerExit py!"_handler_use" (some py!"use B") (some []),
          .keyValue py!"key 1" (some py!"v"), .operation py!"key" [py!"1"],
          .handlerEntry py!"_generic_option_handler" (some py!"key 1") (some py!"v"),
          .handlerExit py!"_generic_option_handler" (some py!"key 1") (some py!"v"),
          .keyValue py!"set-var foo" (some py!"bar"), .operation py!"set_var" [py!"foo"],
          .handlerEntry py!"handler_set_var" (some py!"set-var foo") (some py!"bar"),
          .handlerExit py!"handler_set_var" (some py!"set-var foo") (some py!"bar"),
         .sectionExit py!"A",
        .handlerExit py!"_handler_use" (some py!"use A") (some []),
        .keyValue py!"key 3" none, .operation py!"key" [py!"3"],
        .handlerEntry py!"_generic_option_handler" (some py!"key 3") none,
        .handlerExit py!"_generic_option_handler" (some py!"key 3") none,
       .sectionExit py!"C",
      .handlerExit py!"_handler_use" (some py!"use 'C'") (some []),
      .keyValue py!"key 2" (some py!"2"), .operation py!"key" [py!"2"],
      .handlerEntry py!"_generic_option_handler" (some py!"key 2") (some py!"2"),
      .handlerExit py!"_generic_option_handler" (some py!"key 2") (some py!"2"),
     .sectionExit py!"B"] := by rfl

/-- C16: every parse has exactly one chronicle, and without the records of the log it is the unrolling. -/
theorem C16_chronicle_is_the_unrolling (E : Env δ ω) (s : Str) (i f : Bool) :
    ∃ its, ParseChronicle E s i f its ∧ (∀ its', ParseChronicle E s i f its' → its' = its) ∧
      ParseTrace E s i f (eventsOf its) := by
  obtain ⟨itsR, hR⟩ := chronicle_total E s [] s (by simp)
  by_cases hh : i = true ∧ E.cfg.hasSection E.defaultName = true
  · obtain ⟨itsD, hD⟩ := chronicle_total E s [] E.defaultName (by simp)
    refine ⟨_, .mk (fun _ => ⟨itsD, hD, rfl⟩) (fun h => absurd hh h) hR, ?_, ?_⟩
    · rintro its' ⟨h1, _, h3⟩
      obtain ⟨itsD', hD', rfl⟩ := h1 hh
      rw [chronicle_det hD' hD, chronicle_det h3 hR]
    · have := ParseTrace.mk (init := i) (fin := f) (fun _ => chronicle_unrolls hD) (fun h => absurd hh h) (chronicle_unrolls hR)
      simp only [eventsOf_append]
      cases i <;> cases f <;> simpa [eventsOf] using this
  · refine ⟨_, .mk (fun h => absurd h hh) (fun _ => rfl) hR, ?_, ?_⟩
    · rintro its' ⟨_, h2, h3⟩
      rw [h2 hh, chronicle_det h3 hR]
    · have := ParseTrace.mk (init := i) (fin := f) (fun h => absurd h hh) (fun _ => rfl) (chronicle_unrolls hR)
      simp only [eventsOf_append]
      cases i <;> cases f <;> simpa [eventsOf] using this

/-- C16: with a positive debug level, the log of a parse, successful or not, is exactly what the chronicle of the
parse prescribes, up to the event at which the parse fails. -/
theorem C16_exact_log (hdbg : 0 < E.debug) (hs : s ≠ []) {its : List (Step δ ω)} (hc : ParseChronicle E s i f its)
    (hn : E.cfg.sectionNames.length + 3 ≤ n)
    (hd : i = true → E.cfg.hasSection E.defaultName = true → s = E.defaultName ∨ ¬ Reaches E E.defaultName s) :
    let start : Core δ ω := { o.toCore with shared := E.emptyShared, checked := setAdd o.checked s }
    (parseSection E n s i f o).2.log = (replayItems E s its start []).2.2 ∧
    (parseSection E n s i f o).2.toCore = (replayItems E s its start []).2.1 ∧
    (match (replayItems E s its start []).1 with
     | none => (parseSection E n s i f o).1 = .ok (replayItems E s its start []).2.1.shared
     | some e => (parseSection E n s i f o).1 = .exc e) := by
  change (parseSection E n s i f o).2.log = (replayItems E s its (startCore E s o.toCore) []).2.2 ∧
    (parseSection E n s i f o).2.toCore = (replayItems E s its (startCore E s o.toCore) []).2.1 ∧
    (match (replayItems E s its (startCore E s o.toCore) []).1 with
     | none => (parseSection E n s i f o).1 = .ok (replayItems E s its (startCore E s o.toCore) []).2.1.shared
     | some e => (parseSection E n s i f o).1 = .exc e)
  rw [parseSection_apply E n hs]
  obtain ⟨h1, h2, h3, _⟩ := lsimParse hdbg hc hn hd { toCore := startCore E s o.toCore, processed := [], log := [] } (by simp)
  dsimp only at h1 h2 h3
  generalize replayItems E s its (startCore E s o.toCore) [] = x at h1 h2 h3
  obtain ⟨x1, x2, x3⟩ := x
  cases hp : parseR E n s s i f { toCore := startCore E s o.toCore, processed := [], log := [] } with
  | mk y w' =>
    rw [hp] at h1 h2 h3
    dsimp only at h1 h2 h3
    cases x1 with
    | none => subst h1; subst h2; exact ⟨h3, rfl, rfl⟩
    | some e => subst h1; exact ⟨h3, h2, rfl⟩

/-- A failing parse: section D stores an option and then uses a missing section. The log stops at the entry of that. -/
example : (parseSection envDebug 12 py!"D" false false Example.o0).2.log.getLast? = some (.sectionEntry py!"MISSING") ∧
    (parseSection envDebug 12 py!"D" false false Example.o0).1 = .exc .keyError := by
  decide +kernel

/-! ### C17 -/

/-- Two objects that differ at most in their log (and, if `notices` is false, in the printed notices). -/
structure SameButLog (notices : Bool) (o o' : Obj δ ω) : Prop where
  data : o'.data = o.data
  checked : o'.checked = o.checked
  shared : o'.shared = o.shared
  self : o'.self = o.self
  processed : o'.processed = o.processed
  lastResult : o'.lastResult = o.lastResult
  out : notices = true → o'.out = o.out

theorem sameButLog_iff {b : Bool} {o o' : Obj δ ω} : SameButLog b o o' ↔ SameObj b o o' :=
  ⟨fun h => ⟨⟨h.data, h.checked, h.shared, h.self, h.processed, h.out⟩, h.lastResult⟩,
   fun h => ⟨h.1.data, h.1.checked, h.1.shared, h.1.self, h.1.processed, h.2, h.1.out⟩⟩

theorem run_two {lv : Nat} {sw cw : Bool} {dbg : Nat} {pv : Str → Option (Impl δ ω)} {cmp : Bool}
    (hev : Tuned false cmp E lv sw cw dbg pv)
    (n : Nat) (ops : List EdOp) (o o' : Obj δ ω) (h : SameObj cmp o o') :
    SameObj cmp (EdOp.run E n ops o) (EdOp.run (E.tune lv sw cw dbg pv) n ops o') := by
  induction ops generalizing o o' with
  | nil => exact h
  | cons op ops ih => exact ih _ _ (Two.exec hev n op o o' h (fun h => by cases h)).2

/-- C17: after any history, the outcome of any operation and everything but the log are the same for any two
debug levels. -/
theorem C17_debug_level_is_invisible (E : Env δ ω) (dbg : Nat) (n : Nat) (ops : List EdOp) (op : EdOp) (o : Obj δ ω) :
    (op.exec { E with debug := dbg } n (EdOp.run { E with debug := dbg } n ops o)).1 =
      (op.exec E n (EdOp.run E n ops o)).1 ∧
    SameButLog true (op.exec E n (EdOp.run E n ops o)).2
      (op.exec { E with debug := dbg } n (EdOp.run { E with debug := dbg } n ops o)).2 := by
  have h0 : SameObj true o o := ⟨⟨rfl, rfl, rfl, rfl, rfl, fun _ => rfl⟩, rfl⟩
  have h1 := run_two (.ofEvents (ecEvent_debug E dbg)) n ops o o h0
  have h2 := Two.exec (.ofEvents (ecEvent_debug E dbg)) n op _ _ h1 (fun h => by cases h)
  exact ⟨h2.1, sameButLog_iff.mpr h2.2⟩

/-- C17: the flags `exception_control_silent_warnings` and `exception_control_compact_warnings` change nothing
but the printed notices (and, with them, nothing in the outcome of any operation after any history). -/
theorem C17_warning_flags_are_invisible (E : Env δ ω) (sw cw : Bool) (n : Nat) (ops : List EdOp) (op : EdOp) (o : Obj δ ω) :
    (op.exec { E with silentWarnings := sw, compactWarnings := cw } n
      (EdOp.run { E with silentWarnings := sw, compactWarnings := cw } n ops o)).1 =
      (op.exec E n (EdOp.run E n ops o)).1 ∧
    SameButLog false (op.exec E n (EdOp.run E n ops o)).2
      (op.exec { E with silentWarnings := sw, compactWarnings := cw } n
        (EdOp.run { E with silentWarnings := sw, compactWarnings := cw } n ops o)).2 := by
  have h0 : SameObj false o o := ⟨⟨rfl, rfl, rfl, rfl, rfl, fun _ => rfl⟩, rfl⟩
  have h1 := run_two (.ofEvents (ecEvent_flags E sw cw E.debug)) n ops o o h0
  have h2 := Two.exec (.ofEvents (ecEvent_flags E sw cw E.debug)) n op _ _ h1 (fun h => by cases h)
  exact ⟨h2.1, sameButLog_iff.mpr h2.2⟩

/-- C17: at debug level 0 `parse_section` leaves an empty log. -/
theorem C17_no_log_at_level_zero (E : Env δ ω) (h0 : E.debug = 0) (n : Nat) (s : Str) (i f : Bool) (o : Obj δ ω) :
    (parseSection E n s i f o).2.log = [] := by
  by_cases hs : s = []
  · subst hs; rfl
  · rw [parseSection_apply E n hs]
    have := (stepRel_nolog E s h0).parseR n s i f { toCore := startCore E s o.toCore, processed := [], log := [] }
    generalize parseR E n s s i f _ = x at this
    obtain ⟨a, w⟩ := x
    cases a <;> exact this

/-- The log does differ in the example, the data do not. -/
example : (parseSection envDebug 12 py!"A" true true Example.o0).2.data = Example.dataA ∧
    (parseSection envDebug 12 py!"A" true true Example.o0).2.log.length = 50 ∧ Example.oA.log = [] := ⟨rfl, rfl, rfl⟩

/-! ### C33 -/

/-- C33: if two files agree on the sections that matter for `s` (option names in order and values) and on the
presence of DEFAULT, then `parse_section(s)` does the same with both. -/
theorem C33_only_relevant_sections_matter (E : Env δ ω) (c' : Cfg) (s : Str)
    (hsame : ∀ t, Relevant E s t → c'.optionNames t = E.cfg.optionNames t ∧
      ∀ keys, E.cfg.optionNames t = some keys → ∀ k ∈ keys, c'.value t k = E.cfg.value t k)
    (hdef : c'.hasSection E.defaultName = E.cfg.hasSection E.defaultName) (n : Nat) (i f : Bool) (o : Obj δ ω) :
    parseSection { E with cfg := c' } n s i f o = parseSection E n s i f o :=
  (congrFun (parseSection_agree (c' := c') hsame hdef n f) o).symm

theorem get?_perm_of_nodup {ν : Type} {d d' : Dict Str ν} (hp : d.Perm d') (hn : (Dict.keys d).Nodup) (k : Str) :
    Dict.get? d' k = Dict.get? d k := by
  have hn' : (Dict.keys d').Nodup := (hp.map Prod.fst).nodup_iff.mp hn
  have mem : ∀ (d : Dict Str ν), (Dict.keys d).Nodup → ∀ k v, Dict.get? d k = some v ↔ (k, v) ∈ d := by
    intro d
    induction d with
    | nil => intro _ k v; simp [Dict.get?]
    | cons p d ih =>
      obtain ⟨a, b⟩ := p
      intro hn k v
      simp only [Dict.keys, List.map_cons, List.nodup_cons] at hn
      simp only [Dict.get?]
      by_cases h : a = k
      · subst h
        simp only [if_true, List.mem_cons, Prod.mk.injEq, true_and]
        constructor
        · intro h; exact .inl (Option.some.inj h).symm
        · rintro (h | h)
          · rw [h]
          · exact absurd (List.mem_map.mpr ⟨_, h, rfl⟩) hn.1
      · rw [if_neg h, ih hn.2]
        simp only [List.mem_cons, Prod.mk.injEq]
        constructor
        · exact .inr
        · rintro (⟨h', _⟩ | h')
          · exact absurd h'.symm h
          · exact h'
  cases h : Dict.get? d k with
  | some v => exact (mem d' hn' k v).mpr (hp.mem_iff.mp ((mem d hn k v).mp h))
  | none =>
    cases h' : Dict.get? d' k with
    | none => rfl
    | some v =>
      rw [(mem d hn k v).mpr (hp.mem_iff.mpr ((mem d' hn' k v).mp h'))] at h
      cases h

/-- C33: the order of the sections in the file does not matter for `parse_section`. -/
theorem C33_section_order_irrelevant (E : Env δ ω) (c' : Cfg) (hp : E.cfg.sections.Perm c'.sections)
    (hn : (Dict.keys E.cfg.sections).Nodup) (hc : c'.common = E.cfg.common) (hcn : c'.commonName = E.cfg.commonName)
    (n : Nat) (s : Str) (i f : Bool) (o : Obj δ ω) :
    parseSection { E with cfg := c' } n s i f o = parseSection E n s i f o := by
  have hget : ∀ k, Dict.get? c'.sections k = Dict.get? E.cfg.sections k := get?_perm_of_nodup hp hn
  have hopt : ∀ t, c'.optionNames t = E.cfg.optionNames t := by
    intro t; simp only [Cfg.optionNames, hget, hc, hcn]
  have hraw : ∀ t k, c'.rawValue t k = E.cfg.rawValue t k := by
    intro t k; simp only [Cfg.rawValue, hget, hc, hcn]
  refine C33_only_relevant_sections_matter E c' s (fun t _ => ⟨hopt t, fun keys _ k _ => ?_⟩) ?_ n i f o
  · have : c'.rawValue t = E.cfg.rawValue t := funext (hraw t)
    simp only [Cfg.value, this]
  · simp only [Cfg.hasSection, Dict.mem, hget]

/-- The example file reversed, and with section D (not relevant for A) left out. -/
example : (parseSection { Example.env with cfg := { Example.cfg with sections := Example.cfg.sections.reverse } } 12
      py!"A" true true Example.o0).2.data = Example.dataA ∧
    Example.cfg.sections.Perm Example.cfg.sections.reverse ∧ (Dict.keys Example.cfg.sections).Nodup :=
  ⟨rfl, (List.reverse_perm _).symm, by decide⟩

/-! ### C34 -/

/-- C34: an operation that succeeds at some exception level succeeds at every lower level, with the same result and
the same effect on the data, the shared data and the attributes of the subclass. -/
theorem C34_lower_level_same_success (E : Env δ ω) (lv : Nat) (hl : lv ≤ E.level) (n : Nat) (op : EdOp) (o : Obj δ ω)
    {v : EdVal δ} (h : (op.exec E n o).1 = .ok v) :
    (op.exec { E with level := lv } n o).1 = .ok v ∧
    SameButLog false (op.exec E n o).2 (op.exec { E with level := lv } n o).2 := by
  have h0 : SameObj false o o := ⟨⟨rfl, rfl, rfl, rfl, rfl, fun _ => rfl⟩, rfl⟩
  have h2 := Two.exec (.ofEvents (ecEvent_level E lv hl E.silentWarnings E.compactWarnings E.debug)) n op o o h0 (fun _ => ⟨v, h⟩)
  refine ⟨?_, sameButLog_iff.mpr h2.2⟩
  exact h2.1.trans h

/-- A succeeds at level 4, hence at 0; it does not succeed at 5. -/
example : (parseSection { Example.env with level := 0 } 12 py!"A" true true Example.o0).2.data = Example.dataA ∧
    (parseSection Example.env5 12 py!"A" true true Example.o0).1 = .exc .valueError := ⟨rfl, rfl⟩

end CPE.Props
