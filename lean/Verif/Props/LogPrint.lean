import Verif.Proofs.LogPrint
/-
C81: the printed debug log (src/configparserenhanced/ConfigParserEnhanced.py:1340-1413).
-/
namespace CPE.Props
open CPE CPE.LogPrint CPE.LogPrint.Spec

variable {β : Type} {P : Shower β} {before after : List (Op β)}

/-- C81: the log after any history. `before` is what came up to the last time the log was forgotten: then the log has,
in order, the dicts logged since at a positive debug level, each with its type. There is no log if nothing was logged
since. Printing changes none of this. -/
theorem C81_log (hf : ∀ op ∈ before ++ after, Fit op) (hb : before = [] ∨ ∃ l op, before = l ++ [op] ∧ Forgets op)
    (ha : ∀ op ∈ after, ¬ Forgets op) :
    (run P (before ++ after) {}).debug = levelAfter 0 (before ++ after) ∧
    ((∃ op ∈ after, Touches op) →
      (run P (before ++ after) {}).log = some (recorded (levelAfter 0 before) after)) ∧
    ((∀ op ∈ after, ¬ Touches op) → (run P (before ++ after) {}).log = none) := by
  obtain ⟨h1, _, _⟩ := run_log P (before ++ after) {} hf (fun es h => by cases h)
  obtain ⟨b1, _, b3⟩ := run_log P before {} (fun x hx => hf x (by simp [hx])) (fun es h => by cases h)
  obtain ⟨_, a2, _⟩ := run_log P after (run P before {}) (fun x hx => hf x (by simp [hx])) b3
  have hn : (run P before {}).log = none := by
    rcases hb with rfl | ⟨l, op, rfl, ho⟩
    · rfl
    · rw [run_append]
      cases op with
      | reset => rfl
      | add _ _ => exact absurd ho id
      | level _ => exact absurd ho id
      | print _ => exact absurd ho id
  rw [b1, hn] at a2
  obtain ⟨c1, c2⟩ := logAfter_recorded after (levelAfter 0 before) none ha
  rw [run_append]
  refine ⟨by rw [← run_append]; exact h1, fun ht => ?_, fun ht => ?_⟩
  · rw [a2, show (({} : State β).debug) = 0 from rfl, c1 ht]; rfl
  · rw [a2, show (({} : State β).debug) = 0 from rfl, c2 ht]

/-- C81: after any history that leaves a log, printing it succeeds and prints the lines of the log, each marked as a
message of level 1, and none at debug level 0. Nothing else changes. -/
theorem C81_page {ops : List (Op β)} (hf : ∀ op ∈ ops, Fit op) {es : List (Entry β)} (hl : (run P ops {}).log = some es)
    {w : Nat} (hw : Widest es w) :
    print P true (run P ops {}) =
      (.ok (), { run P ops {} with out := (run P ops {}).out ++ shown (levelAfter 0 ops) (page P w es) }) := by
  obtain ⟨h1, _, h3⟩ := run_log P ops {} hf (fun es h => by cases h)
  rw [print_pretty P _ hl (h3 es hl) hw, show levelAfter 0 ops = (run P ops {}).debug from h1.symm]

/-- C81: the width of the first column exists and is determined by the log. -/
theorem C81_width {ops : List (Op β)} (hf : ∀ op ∈ ops, Fit op) {es : List (Entry β)} (hl : (run P ops {}).log = some es) :
    ∃ w, Widest es w ∧ ∀ w', Widest es w' → w' = w := by
  obtain ⟨_, _, h3⟩ := run_log P ops {} hf (fun es h => by cases h)
  obtain ⟨w, _, _, h4, h5⟩ := measure_ok es 0 (h3 es hl)
  exact ⟨w, ⟨h4, h5⟩, fun w' h => widest_det h ⟨h4, h5⟩⟩

/-- C81: the colons of all lines about keys are in one column: a line of a block is empty, or it has `w` characters for
the key after the first four, and then the colon between blanks. -/
theorem C81_columns {es : List (Entry β)} {w : Nat} (hw : Widest es w) {e : Entry β} (he : e ∈ es) {l : Str}
    (hl : l ∈ block P w e) : l = [] ∨ (l.drop (4 + w)).take 3 = py!" : " := by
  have key : ∀ (lead tail : Str) (p : Str × Val β), lead.length = 4 → p ∈ e →
      ((row P w lead tail p).drop (4 + w)).take 3 = py!" : " := by
    intro lead tail p h4 hp
    have hk := hw.1 e he p hp
    have hlen : (lead ++ p.1 ++ List.replicate (w - p.1.length) ' ').length = 4 + w := by
      simp only [List.length_append, List.length_replicate]; omega
    unfold row
    rw [List.append_assoc _ (py!" : ") _, List.append_assoc _ (py!" : " ++ _) _, ← hlen, List.drop_left]
    rfl
  simp only [block, List.mem_append, List.mem_map, List.mem_filter, List.mem_singleton] at hl
  rcases hl with ((⟨p, ⟨hp, _⟩, rfl⟩ | ⟨p, ⟨hp, _⟩, rfl⟩) | ⟨p, ⟨hp, _⟩, rfl⟩) | rfl
  · exact .inr (key _ _ p rfl hp)
  · exact .inr (key _ _ p rfl hp)
  · exact .inr (key _ _ p rfl hp)
  · exact .inl rfl

/-- C81: nothing is left out or printed twice: a block has one line for each key of the dict, and an empty line. -/
theorem C81_each_key (e : Entry β) (w : Nat) :
    (block P w e).length = e.length + 1 ∧
    ∀ p ∈ e, ∃ lead tail, (lead = py!"    " ∨ lead = py!"--> ") ∧ (tail = [] ∨ tail = py!" ") ∧
      row P w lead tail p ∈ block P w e := by
  constructor
  · simp only [block, List.length_append, List.length_map, List.length_singleton]
    congr 1
    induction e with
    | nil => rfl
    | cons p e ih =>
      by_cases h1 : p.1 = py!"type"
      · have h2 : ¬ p.1 = py!"name" := by rw [h1]; decide
        rw [List.filter_cons_of_pos (by simpa using h1), List.filter_cons_of_neg (by simpa using h2),
          List.filter_cons_of_neg (by simp [h1])]
        simp only [List.length_cons]; omega
      · by_cases h2 : p.1 = py!"name"
        · rw [List.filter_cons_of_neg (by simpa using h1), List.filter_cons_of_pos (by simpa using h2),
            List.filter_cons_of_neg (by simp [h2])]
          simp only [List.length_cons]; omega
        · rw [List.filter_cons_of_neg (by simpa using h1), List.filter_cons_of_neg (by simpa using h2),
            List.filter_cons_of_pos (by simp [h1, h2])]
          simp only [List.length_cons]; omega
  · intro p hp
    by_cases h1 : p.1 = py!"type"
    · exact ⟨_, _, .inl rfl, .inr rfl, by
        simp only [block, List.mem_append, List.mem_map, List.mem_filter]
        exact .inl (.inl (.inl ⟨p, ⟨hp, by simpa using h1⟩, rfl⟩))⟩
    · by_cases h2 : p.1 = py!"name"
      · exact ⟨_, _, .inr rfl, .inr rfl, by
          simp only [block, List.mem_append, List.mem_map, List.mem_filter]
          exact .inl (.inl (.inr ⟨p, ⟨hp, by simpa using h2⟩, rfl⟩))⟩
      · exact ⟨_, _, .inr rfl, .inl rfl, by
          simp only [block, List.mem_append, List.mem_map, List.mem_filter]
          exact .inl (.inr ⟨p, ⟨hp, by simpa using ⟨h1, h2⟩⟩, rfl⟩)⟩

/-- C81: without a log, printing raises AttributeError; the headline is already printed then. -/
theorem C81_no_log {ops : List (Op β)} (hf : ∀ op ∈ ops, Fit op) (hl : (run P ops {}).log = none) :
    print P true (run P ops {}) =
      (.exc .attributeError,
        { run P ops {} with out := (run P ops {}).out ++ shown (levelAfter 0 ops) [py!"Loginfo:"] }) ∧
    print P false (run P ops {}) = (.exc .attributeError, run P ops {}) := by
  obtain ⟨h1, _, _⟩ := run_log P ops {} hf (fun es h => by cases h)
  rw [print_missing P _ hl, show levelAfter 0 ops = (run P ops {}).debug from h1.symm]
  refine ⟨rfl, ?_⟩
  have h := print_whole P (run P ops {})
  simp only [hl] at h
  exact h

/-- C81: with pretty=False the list is printed as Python shows it, whatever the debug level. -/
theorem C81_whole {ops : List (Op β)} {es : List (Entry β)} (hl : (run P ops {}).log = some es) :
    print P false (run P ops {}) =
      (.ok (), { run P ops {} with out := (run P ops {}).out ++ [P.whole es ++ py!"\n"] }) := by
  have h := print_whole P (run P ops {})
  simp only [hl] at h
  simp only [h, hl]

/-- C81: what is no dict is refused with TypeError if and only if the debug level is positive, and is not logged. -/
theorem C81_refused (t : Str) (s : State β) :
    ((add t none s).1 = .exc .typeError ↔ 0 < s.debug) ∧ ((add t none s).1 = .ok () ↔ s.debug = 0) ∧
    (add t none s).2 = { s with log := some (s.log.getD []) } := by
  rw [add_apply]
  by_cases h : s.debug = 0
  · simp [h]
  · rw [if_neg h]
    exact ⟨⟨fun _ => by omega, fun _ => rfl⟩, ⟨fun h => (nomatch h), fun h' => absurd h' h⟩, rfl⟩

/-- C81: the log of a parse. When the events `l` happen in a parse at debug level `d > 0`, then what is printed
afterwards is a block for each event in turn, made of the kind of the event and what belongs to it. -/
theorem C81_parse {Q : Shower Logged} {ops : List (Op Logged)} (hf : ∀ op ∈ ops, Fit op) {l : List LogEntry} (hl : l ≠ []) {d : Nat}
    (hd : 0 < d) {w : Nat} (hw : Widest (dicts 0 false l) w) :
    print Q true (run Q (ops ++ [.level d, .reset] ++ callsOf 0 l) {}) =
      (.ok (), { debug := d, log := some (dicts 0 false l),
                 out := (run Q ops {}).out ++ (page Q w (dicts 0 false l)).map fun x => py!"[D-1] " ++ x ++ py!"\n" }) := by
  have hc := callsOf_fit l 0
  have hfit : ∀ op ∈ ops ++ [.level d, .reset] ++ callsOf 0 l, Fit op := by
    intro op h
    rcases List.mem_append.1 h with h | h
    · rcases List.mem_append.1 h with h | h
      · exact hf op h
      · simp only [List.mem_cons, List.not_mem_nil, or_false] at h
        rcases h with rfl | rfl <;> exact trivial
    · exact (hc op h).1
  have hlev : levelAfter 0 (ops ++ [.level d, .reset]) = d := by
    have : ∀ (a : List (Op Logged)) (k : Nat), levelAfter k (a ++ [.level d, .reset]) = d := by
      intro a
      induction a with
      | nil => intro k; rfl
      | cons x a ih => intro k; cases x <;> exact ih _
    exact this ops 0
  have hne : ∃ op ∈ callsOf 0 l, Touches op := by
    cases hx : callsOf 0 l with
    | nil =>
      cases l with
      | nil => exact absurd rfl hl
      | cons e l => unfold callsOf at hx; split at hx <;> simp_all
    | cons op t => exact ⟨op, by simp, (hc op (by simp [hx])).2.2⟩
  obtain ⟨h1, h2, _⟩ := C81_log (P := Q) hfit (.inr ⟨ops ++ [.level d], .reset, by simp, trivial⟩) fun op h => (hc op h).2.1
  have h2 := h2 hne
  rw [hlev, recorded_calls d (by omega)] at h2
  have hdbg : (run Q (ops ++ [.level d, .reset] ++ callsOf 0 l) {}).debug = d := by
    rw [run_append]
    have : ∀ (a : List (Op Logged)) (s : State Logged), (∀ op ∈ a, ¬ Forgets op ∧ Touches op) → (run Q a s).debug = s.debug := by
      intro a
      induction a with
      | nil => intro s _; rfl
      | cons x a ih =>
        intro s h
        have hx := (h x (by simp)).2
        cases x with
        | add t y =>
          show (run Q a (add t y s).2).debug = s.debug
          rw [ih _ fun op ho => h op (by simp [ho]), add_apply]
          split
          · rfl
          · cases y <;> rfl
        | reset => exact absurd hx id
        | level k => exact absurd hx id
        | print b => exact absurd hx id
    rw [this _ _ fun op h => (hc op h).2, run_append]
    rfl
  have hout : (run Q (ops ++ [.level d, .reset] ++ callsOf 0 l) {}).out = (run Q ops {}).out := by
    rw [run_append]
    have : ∀ (a : List (Op Logged)) (s : State Logged), (∀ op ∈ a, ¬ Forgets op ∧ Touches op) → (run Q a s).out = s.out := by
      intro a
      induction a with
      | nil => intro s _; rfl
      | cons x a ih =>
        intro s h
        have hx := (h x (by simp)).2
        cases x with
        | add t y =>
          show (run Q a (add t y s).2).out = s.out
          rw [ih _ fun op ho => h op (by simp [ho]), add_apply]
          split
          · rfl
          · cases y <;> rfl
        | reset => exact absurd hx id
        | level k => exact absurd hx id
        | print b => exact absurd hx id
    rw [this _ _ fun op h => (hc op h).2, run_append]
    rfl
  have : d ≠ 0 := by omega
  rw [C81_page hfit h2 hw, ← h1]
  simp only [hdbg, h2, hout, shown, this, if_false]

/-! ### Concrete cases -/

/-- Values that are shown by themselves. -/
private def shower : Shower Str := { value := id, whole := fun es => (toString es.length).toList }

/-- A log of three dicts, one of them logged with a type of its own, after an older log that is forgotten. -/
private def history : List (Op Str) :=
  [.level 1, .add py!"old" (some []), .reset, .add py!"section-entry" (some [(py!"name", .text py!"A")]),
   .level 0, .add py!"lost" (some []), .level 2,
   .add py!"handler-entry" (some [(py!"entry", .other py!"(k, v)"), (py!"name", .text py!"h"), (py!"parameters", .other py!"<p>")]),
   .print true, .add py!"x" none, .add py!"z" (some [(py!"type", .text py!"y"), (py!"op", .other py!"use")])]

example : (∀ op ∈ history, Fit op) ∧ (run shower history {}).log = some
    [[(py!"name", .text py!"A"), (py!"type", .text py!"section-entry")],
     [(py!"entry", .other py!"(k, v)"), (py!"name", .text py!"h"), (py!"parameters", .other py!"<p>"), (py!"type", .text py!"handler-entry")],
     [(py!"type", .text py!"z"), (py!"op", .other py!"use")]] := by
  refine ⟨?_, by decide +kernel⟩
  intro op h
  simp only [history, List.mem_cons, List.not_mem_nil, or_false] at h
  rcases h with rfl | rfl | rfl | rfl | rfl | rfl | rfl | rfl | rfl | rfl | rfl <;> simp [Fit]

example : (print shower true (run shower history {})).2.out.drop (run shower history {}).out.length =
    [py!"[D-1] Loginfo:\n",
     py!"[D-1]     type       : section-entry \n",
     py!"[D-1] --> name       : A \n",
     py!"[D-1] \n",
     py!"[D-1]     type       : handler-entry \n",
     py!"[D-1] --> name       : h \n",
     py!"[D-1] --> entry      : (k, v)\n",
     py!"[D-1] --> parameters : <p>\n",
     py!"[D-1] \n",
     py!"[D-1]     type       : z \n",
     py!"[D-1] --> op         : use\n",
     py!"[D-1] \n"] := by decide +kernel

example : (print shower true (run shower (history ++ [.reset]) {})).1 = .exc .attributeError := by decide +kernel

example : Widest [[(py!"name", Val.text (β := Str) py!"A"), (py!"parameters", .other py!"p")]] 10 := by
  refine ⟨by decide +kernel, .inr ⟨_, .head _, _, .tail _ (.head _), rfl⟩⟩

/-- How the objects in the log of a parse are shown, for the example. -/
private def shownObj : Logged → Str
  | .none => py!"None"
  | .pair k v => py!"(" ++ k.getD [] ++ py!", " ++ v.getD py!"None" ++ py!")"
  | .strs l => py!"[" ++ l.flatten ++ py!"]"
  | .params i => py!"<HandlerParameters " ++ (toString i).toList ++ py!">"

example : (print { value := shownObj, whole := fun _ => [] } true (run { value := shownObj, whole := fun _ => [] }
      ([.add py!"x" none, .level 3, .reset] ++ callsOf 0
        [.sectionEntry py!"A", .keyValue py!"use A" none, .operation py!"use" [py!"A"],
         .handlerEntry py!"_handler_use" (some py!"use A") none, .cycleDetected py!"A" py!"use",
         .handlerExit py!"_handler_use" (some py!"use A") none, .handlerExit py!"_handler_use" (some py!"use A") none,
         .sectionExit py!"A"]) {})).2.out =
    [py!"[D-1] Loginfo:\n",
     py!"[D-1]     type       : section-entry \n", py!"[D-1] --> name       : A \n", py!"[D-1] \n",
     py!"[D-1]     type       : section-key-value \n", py!"[D-1] --> key        : use A\n",
     py!"[D-1] --> value      : None\n", py!"[D-1] \n",
     py!"[D-1]     type       : section-operation \n", py!"[D-1] --> op         : use\n",
     py!"[D-1] --> params     : [A]\n", py!"[D-1] \n",
     py!"[D-1]     type       : handler-entry \n", py!"[D-1] --> name       : _handler_use \n",
     py!"[D-1] --> entry      : (use A, None)\n", py!"[D-1] --> parameters : <HandlerParameters 3>\n", py!"[D-1] \n",
     py!"[D-1]     type       : cycle-detected \n", py!"[D-1] --> sec-src    : A\n",
     py!"[D-1] --> sec-dst    : use\n", py!"[D-1] \n",
     py!"[D-1]     type       : handler-exit \n", py!"[D-1] --> name       : _handler_use \n",
     py!"[D-1] --> entry      : (use A, None)\n", py!"[D-1] \n",
     py!"[D-1]     type       : handler-exit \n", py!"[D-1] --> name       : _handler_use \n",
     py!"[D-1] --> entry      : (use A, None)\n", py!"[D-1] --> parameters : <HandlerParameters 6>\n", py!"[D-1] \n",
     py!"[D-1]     type       : section-exit \n", py!"[D-1] --> name       : A \n", py!"[D-1] \n"] := by decide +kernel

end CPE.Props
