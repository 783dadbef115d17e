import Verif.Proofs.EventText
/-
C71: what the user sees of an event that does not raise.
-/
namespace CPE.Props
open CPE CPE.Spec CPE.Notes CPE.Notes.Spec

variable {s : ECState} {name key exc hint this : Str} {msg : Option Str} {req : Nat} {e : PyExc}

theorem shown_documented (h : (key, req, hint) ∈ shownEvents) :
    ∃ ev, (key, ev, req) ∈ documentedThreshold ∧ Event.ofName key = some ev ∧ ev.levelReq = req ∧
      key ≠ py!"SILENT" ∧ DbgState.decimal req = hint ∧ '\n' ∉ key ∧ '\n' ∉ hint := by
  simp only [shownEvents, List.mem_cons, Prod.mk.injEq, List.not_mem_nil, or_false] at h
  rcases h with ⟨rfl, rfl, rfl⟩ | ⟨rfl, rfl, rfl⟩ | ⟨rfl, rfl, rfl⟩ | ⟨rfl, rfl, rfl⟩
  · exact ⟨.warning, by simp [documentedThreshold], by decide, rfl, by decide, by decide +kernel, by decide, by decide⟩
  · exact ⟨.minor, by simp [documentedThreshold], by decide, rfl, by decide, by decide +kernel, by decide, by decide⟩
  · exact ⟨.serious, by simp [documentedThreshold], by decide, rfl, by decide, by decide +kernel, by decide, by decide⟩
  · exact ⟨.critical, by simp [documentedThreshold], by decide, rfl, by decide, by decide +kernel, by decide, by decide⟩

/-- The outcome for a class, in terms of the settings that a client sees. -/
theorem event_cls {ev : Event} (stack : List Str) (hname : pyUpper name = key) (hk : Event.ofName key = some ev) :
    (event name (.cls e exc) msg stack s).1 =
      if ev.levelReq ≤ seenLevel s then (.exc e, [])
      else if 0 < seenLevel s ∧ seenSilent s = false ∧ key ≠ py!"SILENT" then
        if seenCompact s = true then
          match compactText key exc stack with
          | .ok t => (.ok (), t)
          | .error e => (.exc e, [])
        else (.ok (), printed (fullPrints key exc msg ev.levelReq stack))
      else (.ok (), []) := by
  obtain ⟨l, si, co⟩ := s
  unfold event
  dsimp only [isRaisable]
  rw [hname, hk]
  dsimp only
  have hl : ((⟨l, si, co⟩ : ECState).getLevel).1 = seenLevel ⟨l, si, co⟩ := by cases l <;> rfl
  rw [hl]
  by_cases h1 : ev.levelReq ≤ seenLevel ⟨l, si, co⟩
  · rw [if_pos h1, if_pos h1]
  · rw [if_neg h1, if_neg h1]
    by_cases h2 : 0 < seenLevel ⟨l, si, co⟩
    · rw [if_pos h2]
      unfold skipEvent
      dsimp only
      have hs : ((ECState.getLevel ⟨l, si, co⟩).2.getSilent).1 = seenSilent ⟨l, si, co⟩ := by cases l <;> cases si <;> rfl
      have hc : (((ECState.getLevel ⟨l, si, co⟩).2.getSilent).2.getCompact).1 = seenCompact ⟨l, si, co⟩ := by
        cases l <;> cases si <;> cases co <;> rfl
      rw [hs, hc]
      by_cases h3 : seenSilent ⟨l, si, co⟩ = false ∧ key ≠ py!"SILENT"
      · have h5 : 0 < seenLevel ⟨l, si, co⟩ ∧ seenSilent ⟨l, si, co⟩ = false ∧ key ≠ py!"SILENT" := ⟨h2, h3⟩
        rw [if_pos h3, if_pos h5]
        by_cases h4 : seenCompact ⟨l, si, co⟩ = true
        · rw [if_pos h4, if_pos h4]
          cases compactText key exc stack <;> rfl
        · rw [if_neg h4, if_neg h4]
      · rw [if_neg h3, if_neg (fun h => h3 h.2)]
    · rw [if_neg h2, if_neg (fun h => h2 h.1)]

/-- C71: with `exception_control_compact_warnings` off, an event below the level, with an exception class, returns and
prints the long notice: event, exception, message if there is one, the callers, and the level at which it would raise. -/
theorem C71_long (e : PyExc) (this : Str) (callers : List Str) (msg : Option Str) (hname : Spells name key)
    (hd : (key, req, hint) ∈ shownEvents)
    (hexc : '\n' ∉ exc) (hl : seenLevel s < req) (h0 : 0 < seenLevel s) (hs : seenSilent s = false)
    (hc : seenCompact s = false) :
    ∃ ls t, LongNotice key exc msg hint callers ls ∧ Printed ls t ∧
      (event name (.cls e exc) msg (callers ++ [this]) s).1 = (.ok (), t) := by
  replace hname := spells_upper hname
  obtain ⟨ev, hdoc, hof, hreq, hne, hdec, hk, hh⟩ := shown_documented hd
  obtain ⟨ms, m1, m2, m3⟩ := messageRows_exist msg
  obtain ⟨ss, s1, s2, s3⟩ := stackRows_exist callers
  refine ⟨_, _, ⟨ms, ss, m1, s1, rfl⟩, printed_unlines ?_, ?_⟩
  · intro l hl
    have mark : ∀ {p q r : Str}, '\n' ∉ p → '\n' ∉ q → '\n' ∉ r → '\n' ∉ p ++ q ++ r := by
      intro p q r h1 h2 h3 h
      rcases List.mem_append.1 h with h | h
      · rcases List.mem_append.1 h with h | h
        · exact h1 h
        · exact h2 h
      · exact h3 h
    simp only [List.mem_append, List.mem_cons, List.not_mem_nil, or_false] at hl
    rcases hl with ((((rfl | rfl | rfl | rfl) | hl) | (rfl | rfl)) | hl) | (rfl | rfl | rfl)
    · decide
    · decide
    · simpa using mark (p := py!"!! Event Type : ") (by decide) hk (r := []) (by simp)
    · simpa using mark (p := py!"!! Exception  : ") (by decide) hexc (r := []) (by simp)
    · exact m2 _ hl
    · decide
    · decide
    · exact s2 _ hl
    · decide
    · exact mark (by decide) hh (by decide)
    · decide
  · rw [event_cls _ hname hof, hreq, if_neg (by omega), if_pos ⟨h0, hs, hne⟩, if_neg (by rw [hc]; simp)]
    unfold fullPrints
    rw [List.dropLast_concat, hdec]
    have app : ∀ a b : List Str, printed (a ++ b) = printed a ++ printed b := by intro a b; simp [printed]
    have un : ∀ a : List Str, printed a = KW.unlines a := fun a => rfl
    rw [app, app, app, app, m3, s3, KW.unlines_append, KW.unlines_append, KW.unlines_append, KW.unlines_append]
    rfl

/-- C71: with `exception_control_compact_warnings` on, the notice is one line. -/
theorem C71_short (e : PyExc) (this caller : Str) (callers : List Str) (msg : Option Str) (hname : Spells name key)
    (hd : (key, req, hint) ∈ shownEvents)
    (hexc : '\n' ∉ exc) (hcaller : caller ≠ []) (hl : seenLevel s < req) (h0 : 0 < seenLevel s) (hs : seenSilent s = false)
    (hc : seenCompact s = true) :
    ∃ l, ShortNotice key exc caller l ∧ Printed [l] (l ++ py!"\n") ∧
      (event name (.cls e exc) msg (callers ++ [caller, this]) s).1 = (.ok (), l ++ py!"\n") := by
  replace hname := spells_upper hname
  obtain ⟨ev, hdoc, hof, hreq, hne, hdec, hk, hh⟩ := shown_documented hd
  have hlines := KW.lines_exist caller
  cases hsp : KW.splitLines caller with
  | nil =>
    rw [hsp] at hlines
    generalize hx : ([] : List Str) = ls at hlines
    cases hlines with
    | none => exact absurd rfl hcaller
    | last _ _ => cases hx
    | line _ _ _ _ => cases hx
  | cons row rest =>
    rw [hsp] at hlines
    refine ⟨_, ⟨row, rest, strip row, hlines, trimmed_strip row, rfl⟩, .cons ?_ .nil, ?_⟩
    · have hrow : '\n' ∉ row := by
        intro hm
        have one : KW.Spec.OneLine row := by
          generalize hx : row :: rest = ls at hlines
          cases hlines with
          | none => cases hx
          | last _ h => cases hx; exact h
          | line h _ _ _ => cases hx; exact h
        exact one _ hm KW.break_newline
      have hst : '\n' ∉ strip row := fun h => hrow (Notes.strip_mem row h)
      simp only [List.mem_append, not_or]
      exact ⟨⟨⟨⟨⟨by decide, hk⟩, by decide⟩, hexc⟩, by decide⟩, hst⟩
    · rw [event_cls _ hname hof, hreq, if_neg (by omega), if_pos ⟨h0, hs, hne⟩, if_pos hc]
      unfold compactText
      rw [show callers ++ [caller, this] = (callers ++ [caller]) ++ [this] by simp, List.dropLast_concat]
      rw [List.getLast?_append]
      dsimp only [List.getLast?_singleton, Option.some_or]
      rw [hsp]

/-- C71: nothing is printed when the event raises, at level 0, with warnings silenced, and for SILENT events; the outcome
is that of C18. -/
theorem C71_quiet (stack : List Str) (msg : Option Str) (exc : Str) {ev : Event} (e : PyExc)
    (hname : Spells name key) (hd : (key, ev, req) ∈ documentedThreshold) :
    (req ≤ seenLevel s → (event name (.cls e exc) msg stack s).1 = (.exc e, [])) ∧
    (seenLevel s < req → seenLevel s = 0 ∨ seenSilent s = true ∨ key = py!"SILENT" →
      (event name (.cls e exc) msg stack s).1 = (.ok (), [])) := by
  replace hname := spells_upper hname
  obtain ⟨hof, hreq⟩ := ofName_documented hd
  constructor
  · intro h
    rw [event_cls _ hname hof, if_pos (by omega)]
  · intro h hq
    rw [event_cls _ hname hof, if_neg (by omega), if_neg]
    rintro ⟨h1, h2, h3⟩
    rcases hq with hq | hq | hq
    · omega
    · rw [h2] at hq; cases hq
    · exact h3 hq

/-- C71: printing changes nothing: outcome and settings are those of the decision alone (`Model/ExceptionControl`, C18), and
something is printed iff that decision has a notice. The stack has a caller, of which the traceback says something. -/
theorem C71_agrees (e : PyExc) (this caller : Str) (callers : List Str) (msg : Option Str) (exc name : Str)
    (hcaller : caller ≠ []) (s : ECState) :
    (event name (.cls e exc) msg (callers ++ [caller, this]) s).2 = (exceptionControlEvent name (.exc e) s).2 ∧
    (event name (.cls e exc) msg (callers ++ [caller, this]) s).1.1 = (exceptionControlEvent name (.exc e) s).1.1 ∧
    ((event name (.cls e exc) msg (callers ++ [caller, this]) s).1.2 = [] ↔
      (exceptionControlEvent name (.exc e) s).1.2 = []) := by
  have hcomp : ∀ key, ∃ t, compactText key exc (callers ++ [caller, this]) = .ok t ∧ t ≠ [] := by
    intro key
    unfold compactText
    rw [show callers ++ [caller, this] = (callers ++ [caller]) ++ [this] by simp, List.dropLast_concat,
      List.getLast?_append]
    dsimp only [List.getLast?_singleton, Option.some_or]
    cases hsp : KW.splitLines caller with
    | nil =>
      have hlines := KW.lines_exist caller
      rw [hsp] at hlines
      generalize hx : ([] : List Str) = ls at hlines
      cases hlines with
      | none => exact absurd rfl hcaller
      | last _ _ => cases hx
      | line _ _ _ _ => cases hx
    | cons row rest => exact ⟨_, rfl, by simp⟩
  obtain ⟨t, ht, htne⟩ := hcomp (pyUpper name)
  have hfull : ∀ n, printed (fullPrints (pyUpper name) exc msg n (callers ++ [caller, this])) ≠ [] := by
    intro n h; cases h
  unfold event exceptionControlEvent
  dsimp only [isRaisable]
  have hsil : ∀ ev, Event.ofName (pyUpper name) = some ev → (pyUpper name ≠ py!"SILENT" ↔ ev ≠ .silent) := by
    intro ev h
    by_cases hk : pyUpper name = py!"SILENT"
    · rw [hk] at h ⊢
      have : ev = .silent := by cases h; rfl
      simp [this]
    · simp only [ne_eq, hk, not_false_eq_true, true_iff]
      rintro rfl
      unfold Event.ofName at h
      rw [if_neg hk] at h
      grind
  cases hof : Event.ofName (pyUpper name) with
  | none => exact ⟨rfl, rfl, ⟨fun _ => rfl, fun _ => rfl⟩⟩
  | some ev =>
    have hsil := hsil ev hof
    obtain ⟨l, si, co⟩ := s
    dsimp only
    by_cases h1 : (ECState.getLevel ⟨l, si, co⟩).1 ≥ ev.levelReq
    · rw [if_pos h1, if_pos h1]; exact ⟨rfl, rfl, ⟨fun _ => rfl, fun _ => rfl⟩⟩
    · rw [if_neg h1, if_neg h1]
      by_cases h2 : (ECState.getLevel ⟨l, si, co⟩).1 > 0
      · rw [if_pos h2, if_pos h2]
        unfold skipEvent
        dsimp only
        by_cases h3 : ((ECState.getLevel ⟨l, si, co⟩).2.getSilent).1 = false ∧ pyUpper name ≠ py!"SILENT"
        · have h3' : (!((ECState.getLevel ⟨l, si, co⟩).2.getSilent).1 && decide (ev ≠ .silent)) = true := by
            rw [h3.1]; simpa using hsil.1 h3.2
          rw [if_pos h3, if_pos h3']
          by_cases h4 : (((ECState.getLevel ⟨l, si, co⟩).2.getSilent).2.getCompact).1 = true
          · rw [if_pos h4, ht]
            exact ⟨rfl, rfl, by simp [htne]⟩
          · rw [if_neg h4]
            exact ⟨rfl, rfl, by simp [hfull]⟩
        · have h3' : ¬ (!((ECState.getLevel ⟨l, si, co⟩).2.getSilent).1 && decide (ev ≠ .silent)) = true := by
            intro h
            apply h3
            rw [Bool.and_eq_true] at h
            exact ⟨by simpa using h.1, hsil.2 (by simpa using h.2)⟩
          rw [if_neg h3, if_neg h3']
          exact ⟨rfl, rfl, ⟨fun _ => rfl, fun _ => rfl⟩⟩
      · rw [if_neg h2, if_neg h2]; exact ⟨rfl, rfl, ⟨fun _ => rfl, fun _ => rfl⟩⟩

/-- C71, other arguments, none of which ever prints. A class that cannot be made without arguments: the exception of its
constructor, whatever the event and the level. Something that is no exception: TypeError. An instance: it is raised as
it is when the level is reached and there is no message, nothing happens at level 0, and all else is a TypeError. With an
exception but an unknown event: KeyError. -/
theorem C71_arguments (name : Str) (msg : Option Str) (stack : List Str) (s : ECState) (e : PyExc) :
    event name (.broken e) msg stack s = ((.exc e, []), s) ∧
    event name .other msg stack s = ((.exc .typeError, []), s) ∧
    (Unknown name →
      event name (.inst e) msg stack s = ((.exc .keyError, []), s) ∧
      ∀ exc, event name (.cls e exc) msg stack s = ((.exc .keyError, []), s)) ∧
    (∀ key ev req, Spells name key → (key, ev, req) ∈ documentedThreshold →
      (event name (.inst e) msg stack s).1 =
        (if req ≤ seenLevel s then (if msg = none then .exc e else .exc .typeError)
         else if seenLevel s = 0 then .ok () else .exc .typeError, []) ∧
      (event name (.inst e) msg stack s).2 = s.getLevel.2) := by
  refine ⟨?_, rfl, ?_, ?_⟩
  · unfold event
    dsimp only [isRaisable]
    by_cases h : e = .typeError
    · rw [if_pos h, h]
    · rw [if_neg h]
  · intro h
    have := (ofName_none_iff _).2 ((unknown_iff _).1 h)
    refine ⟨?_, fun exc => ?_⟩ <;>
    · unfold event
      dsimp only [isRaisable]
      rw [this]
  · intro key ev req hk hd
    obtain ⟨hof, hreq⟩ := ofName_documented hd
    unfold event
    dsimp only [isRaisable]
    rw [spells_upper hk, hof]
    dsimp only
    have hl : s.getLevel.1 = seenLevel s := by obtain ⟨l, si, co⟩ := s; cases l <;> rfl
    rw [hl, hreq]
    by_cases h1 : req ≤ seenLevel s
    · rw [if_pos h1, if_pos h1]
      cases msg
      · exact ⟨rfl, rfl⟩
      · exact ⟨rfl, rfl⟩
    · rw [if_neg h1, if_neg h1]
      by_cases h0 : seenLevel s = 0
      · rw [if_pos h0, if_neg (by omega)]; exact ⟨rfl, rfl⟩
      · rw [if_neg h0, if_pos (by omega)]; exact ⟨rfl, rfl⟩

/-- C71: every row of a notice, in either form, starts with `!!`, whatever the message and the stack are; so the rows of
a message cannot be taken for something else. -/
theorem C71_marked {callers ls : List Str} {caller l : Str} :
    (LongNotice key exc msg hint callers ls → ∀ r ∈ ls, py!"!!" <+: r) ∧
    (ShortNotice key exc caller l → py!"!!" <+: l) := by
  constructor
  · rintro ⟨ms, ss, hm, hs, rfl⟩ r hr
    have h1 : ∀ r ∈ ms, py!"!!" <+: r := by
      cases hm with
      | none => simp
      | some _ =>
        intro r hr
        rcases List.mem_cons.1 hr with rfl | hr
        · exact ⟨_, rfl⟩
        · obtain ⟨k, _, rfl⟩ := List.mem_map.1 hr
          exact ⟨_, rfl⟩
    have h2 : ∀ r ∈ ss, py!"!!" <+: r := by
      clear hr hm
      induction hs with
      | nil => simp
      | cons _ _ _ ih =>
        intro r hr
        rcases List.mem_append.1 hr with hr | hr
        · obtain ⟨k, _, rfl⟩ := List.mem_map.1 hr
          exact ⟨_, rfl⟩
        · exact ih r hr
    simp only [List.mem_append, List.mem_cons, List.not_mem_nil, or_false] at hr
    rcases hr with ((((rfl | rfl | rfl | rfl) | hl) | (rfl | rfl)) | hl) | (rfl | rfl | rfl)
    · exact ⟨_, rfl⟩
    · exact ⟨_, rfl⟩
    · exact ⟨_, rfl⟩
    · exact ⟨_, rfl⟩
    · exact h1 _ hl
    · exact ⟨_, rfl⟩
    · exact ⟨_, rfl⟩
    · exact h2 _ hl
    · exact ⟨_, rfl⟩
    · exact ⟨_, rfl⟩
    · exact ⟨_, rfl⟩
  · rintro ⟨row, rest, t, _, _, rfl⟩
    exact ⟨_, rfl⟩

/-- C71: the long notice can be read back: two calls that print the same had the same event, the same exception, the same
message (and none is different from an empty one), and the same rows for their callers. -/
theorem C71_readable {key' exc' hint' t : Str} {msg' : Option Str} {callers callers' ls ls' : List Str}
    (h : LongNotice key exc msg hint callers ls) (h' : LongNotice key' exc' msg' hint' callers' ls')
    (hp : Printed ls t) (hp' : Printed ls' t) :
    key = key' ∧ exc = exc' ∧ msg = msg' ∧ hint = hint' ∧ ∃ ss, StackRows callers ss ∧ StackRows callers' ss := by
  cases printed_inj hp hp'
  obtain ⟨ms, ss, hm, hs, rfl⟩ := h
  obtain ⟨ms', ss', hm', hs', h⟩ := h'
  simp only [List.append_assoc, List.cons_append, List.nil_append, List.cons.injEq] at h
  obtain ⟨-, -, h1, h2, h⟩ := h
  obtain ⟨rfl, h3⟩ := upTo_inj (messageRows_ne hm) (messageRows_ne hm') h
  replace h := (List.cons.inj h3).2
  have hlen : ss.length = ss'.length := by simpa using congrArg List.length h
  obtain ⟨rfl, h4⟩ := List.append_inj h hlen
  replace h := (List.cons.inj (List.cons.inj h4).2).1
  have h1 : key = key' := by simpa using h1
  have h2 : exc = exc' := by simpa using h2
  have h5 : hint = hint' := by simpa using h
  exact ⟨h1, h2, messageRows_inj hm hm', h5, ss, hs, hs'⟩

/-- C71: the level in the notice is the least one at which the same call raises. -/
theorem C71_hint (hname : Spells name key) (hd : (key, req, hint) ∈ shownEvents) (e : PyExc) (exc : Str)
    (msg : Option Str) (caller this : Str) (callers : List Str) (hcaller : caller ≠ []) (s : ECState) :
    ((event name (.cls e exc) msg (callers ++ [caller, this]) s).1.1 = .exc e ↔ req ≤ seenLevel s) ∧
    ((event name (.cls e exc) msg (callers ++ [caller, this]) s).1.1 = .ok () ↔ seenLevel s < req) := by
  obtain ⟨ev, hdoc, hof, hreq, hne, hdec, hk, hh⟩ := shown_documented hd
  obtain ⟨-, h, -⟩ := C71_agrees e this caller callers msg exc name hcaller s
  obtain ⟨d1, d2⟩ := C18_event_decision s name key ev req e hname hdoc
  by_cases hl : req ≤ seenLevel s
  · rw [h, d1 hl]
    exact ⟨⟨fun _ => hl, fun _ => rfl⟩, ⟨fun h => (by cases h), fun h => by omega⟩⟩
  · rw [h, d2 (by omega)]
    exact ⟨⟨fun h => (by cases h), fun h => absurd h hl⟩, ⟨fun _ => by omega, fun _ => rfl⟩⟩

namespace NoticeExample

def frames : List Str := [py!"  File \"a.py\", line 3, in <module>\n    main()\n", py!"  File \"a.py\", line 2, in main\n    p.go()\n",
  py!"  File \"ExceptionControl.py\", line 300\n"]

/-- A warning at the default level, with a message of two lines. -/
example : (event py!"Warning" (.cls .valueError py!"ValueError") (some py!"one\ntwo") frames {}).1 = (.ok (),
py!"!! ================================================================================
!! EXCEPTION SKIPPED
!! Event Type : WARNING
!! Exception  : ValueError
!! Message    : one
!!            : two
!!
!! Call Stack:
!! File \"a.py\", line 3, in <module>
!!     main()
!! File \"a.py\", line 2, in main
!!     p.go()
!!
!! Increase `exception_control_level` to 5 to raise this exception.
!! ================================================================================
") := by decide +kernel

/-- The compact form. -/
example : (event py!"minor" (.cls .keyError py!"KeyError") (some py!"x") frames { level := some 1, compact := some true }).1 =
    (.ok (), py!"!! EXCEPTION SKIPPED (MINOR : KeyError) @ File \"a.py\", line 2, in main\n") := by decide +kernel

/-- The hypotheses of `C71_long` and `C71_short` hold of those calls. -/
example : Spells py!"Warning" py!"WARNING" ∧ (py!"WARNING", 5, py!"5") ∈ shownEvents ∧ seenLevel {} < 5 ∧
    0 < seenLevel {} ∧ seenSilent {} = false ∧ seenCompact {} = false := by
  refine ⟨(spells_iff (ev := .warning) (n := 5) (by simp [documentedThreshold])).2 (by decide +kernel), ?_, ?_, ?_, ?_, ?_⟩ <;> decide +kernel
example : Spells py!"minor" py!"MINOR" ∧ (py!"MINOR", 4, py!"4") ∈ shownEvents ∧
    seenCompact { level := some 1, compact := some true } = true := by
  refine ⟨(spells_iff (ev := .minor) (n := 4) (by simp [documentedThreshold])).2 (by decide +kernel), ?_, ?_⟩ <;> decide +kernel

/-- An instance: raised, or a TypeError because it cannot be called with the message, or because of `except`. -/
example : (event py!"MINOR" (.inst .keyError) none frames {}).1 = (.exc .keyError, []) ∧
    (event py!"MINOR" (.inst .keyError) (some py!"m") frames {}).1 = (.exc .typeError, []) ∧
    (event py!"WARNING" (.inst .keyError) none frames {}).1 = (.exc .typeError, []) := by
  refine ⟨?_, ?_, ?_⟩ <;> decide +kernel

end NoticeExample

end CPE.Props
