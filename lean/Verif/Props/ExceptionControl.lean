import Verif.Spec.ExceptionControl
/-
C18, C19: the exception-control decision and the life of its settings.
-/
namespace CPE.Props
open CPE.Spec

theorem spells_upper {name key : Str} (h : Spells name key) : pyUpper name = key := by
  have all : ∀ x ∈ letterForms, upperChar x.1 = x.2 := by decide +kernel
  induction h with
  | nil => rfl
  | cons h _ ih =>
    unfold pyUpper at ih ⊢
    rw [List.flatMap_cons, ih, all _ h]

theorem upper_spells {name : Str} (h : ∀ c ∈ pyUpper name, c ∈ py!"ABCDEFGHIJKLMNOPQRSTUVWXYZ") : Spells name (pyUpper name) := by
  induction name with
  | nil => exact .nil
  | cons c s ih =>
    have e : pyUpper (c :: s) = upperChar c ++ pyUpper s := rfl
    rw [e] at h ⊢
    refine .cons ?_ (ih fun d hd => h d (List.mem_append_right _ hd))
    have hc := fun d (hd : d ∈ upperChar c) => h d (List.mem_append_left _ hd)
    unfold upperChar at hc ⊢
    split
    · rename_i hr
      have : ∃ i, i < 26 ∧ c = Char.ofNat (97 + i) := ⟨c.toNat - 97, by omega, by
        rw [show 97 + (c.toNat - 97) = c.toNat by omega, Char.ofNat_toNat]⟩
      obtain ⟨i, hi, rfl⟩ := this
      have all : ∀ i, i < 26 → (Char.ofNat (97 + i), [Char.ofNat ((Char.ofNat (97 + i)).toNat - 32)]) ∈ letterForms := by
        decide +kernel
      exact all i hi
    · rename_i hr
      rw [if_neg hr] at hc
      cases hf : Dict.get? foreignUpper c with
      | some u =>
        rw [Option.getD_some]
        have all : ∀ x ∈ foreignUpper, x ∈ letterForms := by decide +kernel
        have mem : ∀ d : Dict Char Str, Dict.get? d c = some u → (c, u) ∈ d := by
          intro d
          induction d with
          | nil => intro h; cases h
          | cons x d ih =>
            obtain ⟨k, v⟩ := x
            intro h
            rw [Dict.get?] at h
            split at h
            · cases h; subst k; exact List.mem_cons_self
            · exact List.mem_cons_of_mem _ (ih h)
        exact all _ (mem _ hf)
      | none =>
        rw [hf, Option.getD_none] at hc
        rw [Option.getD_none]
        exact List.mem_append_left _ (List.mem_append_left _ (List.mem_map.2 ⟨c, hc c (List.mem_singleton.2 rfl), rfl⟩))

theorem documented_letters {key : Str} {ev : Event} {n : Nat} (h : (key, ev, n) ∈ documentedThreshold) :
    ∀ c ∈ key, c ∈ py!"ABCDEFGHIJKLMNOPQRSTUVWXYZ" := by
  have all : ∀ x ∈ documentedThreshold, ∀ c ∈ x.1, c ∈ py!"ABCDEFGHIJKLMNOPQRSTUVWXYZ" := by decide +kernel
  exact all _ h

/-- What `upper()` makes of a name is an event name exactly if the name spells it. -/
theorem spells_iff {name key : Str} {ev : Event} {n : Nat} (h : (key, ev, n) ∈ documentedThreshold) :
    Spells name key ↔ pyUpper name = key := by
  constructor
  · exact spells_upper
  · rintro rfl
    exact upper_spells (documented_letters h)

theorem unknown_iff (name : Str) : Unknown name ↔ ∀ ev n, (pyUpper name, ev, n) ∉ documentedThreshold := by
  constructor
  · intro h ev n hd
    exact h _ ev n ((spells_iff hd).2 rfl) hd
  · intro h key ev n hs hd
    rw [← spells_upper hs] at hd
    exact h ev n hd

theorem ofName_documented {s : Str} {ev : Event} {n : Nat}
    (h : (s, ev, n) ∈ documentedThreshold) : Event.ofName s = some ev ∧ ev.levelReq = n := by
  simp only [documentedThreshold, List.mem_cons, Prod.mk.injEq, List.not_mem_nil, or_false] at h
  rcases h with ⟨rfl, rfl, rfl⟩ | ⟨rfl, rfl, rfl⟩ | ⟨rfl, rfl, rfl⟩ | ⟨rfl, rfl, rfl⟩ | ⟨rfl, rfl, rfl⟩ | ⟨rfl, rfl, rfl⟩ <;>
    exact ⟨by decide, rfl⟩

theorem ofName_none_iff (s : Str) :
    Event.ofName s = none ↔ ∀ ev n, (s, ev, n) ∉ documentedThreshold := by
  constructor
  · intro h ev n hm
    rw [(ofName_documented hm).1] at h; cases h
  · intro h
    simp only [documentedThreshold, List.mem_cons, Prod.mk.injEq, List.not_mem_nil, or_false] at h
    unfold Event.ofName
    have h1 : s ≠ py!"SILENT" := fun e => h .silent 5 (by simp [e])
    have h2 : s ≠ py!"WARNING" := fun e => h .warning 5 (by simp [e])
    have h3 : s ≠ py!"MINOR" := fun e => h .minor 4 (by simp [e])
    have h4 : s ≠ py!"SERIOUS" := fun e => h .serious 3 (by simp [e])
    have h5 : s ≠ py!"CRITICAL" := fun e => h .critical 2 (by simp [e])
    have h6 : s ≠ py!"CATASTROPHIC" := fun e => h .catastrophic 0 (by simp [e])
    rw [if_neg h1, if_neg h2, if_neg h3, if_neg h4, if_neg h5, if_neg h6]

/-- **C18 (decision).** For a known event name (in any letter case) and a real exception class: the
exception is raised, silently, iff the level reaches the documented threshold; otherwise the call
returns, and prints exactly one notice iff the level is positive, warnings are not silenced and the
event is not SILENT. -/
theorem C18_event_decision (s : ECState) (name key : Str) (ev : Event) (req : Nat) (e : PyExc)
    (hname : Spells name key) (hdoc : (key, ev, req) ∈ documentedThreshold) :
    (req ≤ seenLevel s → (exceptionControlEvent name (.exc e) s).1 = (.exc e, [])) ∧
    (seenLevel s < req →
      (exceptionControlEvent name (.exc e) s).1 =
        (.ok (), if 0 < seenLevel s ∧ seenSilent s = false ∧ key ≠ py!"SILENT"
                 then [⟨ev, e, seenCompact s⟩] else [])) := by
  replace hname := spells_upper hname
  obtain ⟨h1, h2⟩ := ofName_documented hdoc
  have hk : ev = .silent ↔ key = py!"SILENT" := by
    simp only [documentedThreshold, List.mem_cons, Prod.mk.injEq, List.not_mem_nil, or_false] at hdoc
    rcases hdoc with ⟨rfl, rfl, _⟩ | ⟨rfl, rfl, _⟩ | ⟨rfl, rfl, _⟩ | ⟨rfl, rfl, _⟩ | ⟨rfl, rfl, _⟩ | ⟨rfl, rfl, _⟩ <;>
      decide
  subst h2
  obtain ⟨l, si, co⟩ := s
  constructor
  · intro h
    cases l <;> simp_all [exceptionControlEvent, seenLevel, ECState.getLevel]
  · intro h
    cases l <;> cases si <;> cases co <;>
      simp_all [exceptionControlEvent, seenLevel, seenSilent, seenCompact, ECState.getLevel,
        ECState.getSilent, ECState.getCompact, Nat.not_le.mpr] <;> grind

/-- **C18 (bad arguments).** A non-exception raises TypeError whatever the name; an unknown name
raises KeyError; nothing is printed. -/
theorem C18_event_bad_arguments (s : ECState) (name : Str) :
    (exceptionControlEvent name .notRaisable s).1 = (.exc .typeError, []) ∧
    ∀ e, Unknown name → (exceptionControlEvent name (.exc e) s).1 = (.exc .keyError, []) := by
  refine ⟨rfl, fun e h => ?_⟩
  simp [exceptionControlEvent, (ofName_none_iff _).mpr ((unknown_iff _).1 h)]

/-- **C18 (case).** The event name is case-insensitive. -/
theorem C18_event_case_insensitive (s : ECState) (n₁ n₂ key : Str) (ex : Raisable) (h₁ : Spells n₁ key) (h₂ : Spells n₂ key) :
    exceptionControlEvent n₁ ex s = exceptionControlEvent n₂ ex s := by
  simp only [exceptionControlEvent, spells_upper h₁, spells_upper h₂]

/-- **C18 (monotone).** Whatever raises at some level raises the same exception at every higher level. -/
theorem C18_event_monotone (s s' : ECState) (name : Str) (ex : Raisable) (e : PyExc)
    (hle : seenLevel s ≤ seenLevel s')
    (h : (exceptionControlEvent name ex s).1.1 = .exc e) :
    (exceptionControlEvent name ex s').1.1 = .exc e := by
  cases ex with
  | notRaisable => exact h
  | exc e' =>
    by_cases hu : Unknown name
    · rw [(C18_event_bad_arguments s name).2 e' hu] at h
      rw [(C18_event_bad_arguments s' name).2 e' hu]; exact h
    · simp only [Unknown, Classical.not_forall, Classical.not_not] at hu
      obtain ⟨key, ev, n, hk, hd⟩ := hu
      have d := C18_event_decision s name _ ev n e' hk hd
      have d' := C18_event_decision s' name _ ev n e' hk hd
      by_cases hl : n ≤ seenLevel s
      · rw [d.1 hl] at h; rw [d'.1 (Nat.le_trans hl hle)]; exact h
      · rw [d.2 (by omega)] at h; cases h

/-- **C18 (extremes).** CATASTROPHIC always raises; at level 0 nothing else raises and nothing is printed. -/
theorem C18_event_extremes (s : ECState) (e : PyExc) (name : Str) :
    (Spells name py!"CATASTROPHIC" → (exceptionControlEvent name (.exc e) s).1 = (.exc e, [])) ∧
    (∀ key ev n, seenLevel s = 0 → Spells name key → (key, ev, n) ∈ documentedThreshold →
      key ≠ py!"CATASTROPHIC" → (exceptionControlEvent name (.exc e) s).1 = (.ok (), [])) := by
  constructor
  · intro h
    exact (C18_event_decision s name _ .catastrophic 0 e h (by simp [documentedThreshold])).1 (Nat.zero_le _)
  · intro key ev n h0 hk hd hne
    have d := (C18_event_decision s name _ ev n e hk hd).2
    have : n ≠ 0 := by
      simp only [documentedThreshold, List.mem_cons, Prod.mk.injEq, List.not_mem_nil, or_false] at hd
      rcases hd with h | h | h | h | h | h <;> first | omega | exact absurd h.1 hne
    rw [d (by omega)]; simp [h0]

/-- **C18 (inside a parse).** The events the parser fires (with the settings it sees) are decided in the same way. -/
theorem C18_parser_events_agree (s : ECState) (name key : Str) (ev : Event) (req : Nat) (e : PyExc)
    (hname : Spells name key) (hdoc : (key, ev, req) ∈ documentedThreshold) :
    fireEvent (seenLevel s) (seenSilent s) (seenCompact s) ev e = (exceptionControlEvent name (.exc e) s).1 := by
  obtain ⟨h1, h2⟩ := ofName_documented hdoc
  obtain ⟨l, si, co⟩ := s
  simp only [fireEvent, exceptionControlEvent, spells_upper hname, h1]
  cases l <;> cases si <;> cases co <;>
    simp only [ECState.getLevel, ECState.getSilent, ECState.getCompact, seenLevel, seenSilent, seenCompact] <;> grind

-- the table is used at a non-trivial point: a "serious" event at the default level
example : (exceptionControlEvent py!"Serious" (.exc .valueError) {}).1 = (.exc .valueError, []) := by decide
example : (exceptionControlEvent py!"warning" (.exc .valueError) {}).1
    = (.ok (), [⟨.warning, .valueError, false⟩]) := by decide
-- a name that nobody would write, but that Python takes
example : Spells py!"cataﬆrophıc" py!"CATASTROPHIC" ∧
    (exceptionControlEvent py!"cataﬆrophıc" (.exc .valueError) { level := some 0 }).1 = (.exc .valueError, []) :=
  ⟨(spells_iff (ev := .catastrophic) (n := 0) (by simp [documentedThreshold])).2 (by decide +kernel), by decide +kernel⟩
example : (exceptionControlEvent py!"warn" (.exc .valueError) {}).1 = (.exc .keyError, []) := by decide

/-! ### C19 -/

theorem event_seen (n : Str) (ex : Raisable) (s : ECState) :
    seenLevel (exceptionControlEvent n ex s).2 = seenLevel s ∧
    seenSilent (exceptionControlEvent n ex s).2 = seenSilent s ∧
    seenCompact (exceptionControlEvent n ex s).2 = seenCompact s := by
  obtain ⟨l, si, co⟩ := s
  cases ex with
  | notRaisable => exact ⟨rfl, rfl, rfl⟩
  | exc e =>
    simp only [exceptionControlEvent]
    cases Event.ofName (pyUpper n) with
    | none => exact ⟨rfl, rfl, rfl⟩
    | some ev =>
      cases l <;> cases si <;> cases co <;>
        simp only [ECState.getLevel, ECState.getSilent, ECState.getCompact, seenLevel, seenSilent,
          seenCompact] <;> grind

theorem seen_step_level (s : ECState) (op : ECOp) :
    seenLevel (op.step s) = (match acceptedLevel op with | some i => clamp05 i | none => seenLevel s) := by
  obtain ⟨l, si, co⟩ := s
  have hc : ∀ i : Int, (min 5 (max 0 i)).toNat = clamp05 i := by
    intro i; unfold clamp05; split
    · omega
    · split <;> omega
  cases op with
  | getLevel => cases l <;> rfl
  | getSilent => cases si <;> rfl
  | getCompact => cases co <;> rfl
  | setLevel v =>
    cases v <;> simp [ECOp.step, ECState.setLevel, PyArg.toInt, acceptedLevel, seenLevel, ← hc]
  | setSilent v => cases v <;> rfl
  | setCompact v => cases v <;> rfl
  | event n ex => exact (event_seen n ex _).1

theorem seen_step_silent (s : ECState) (op : ECOp) :
    seenSilent (op.step s) = (match acceptedSilent op with | some b => b | none => seenSilent s) := by
  obtain ⟨l, si, co⟩ := s
  cases op with
  | getLevel => cases l <;> rfl
  | getSilent => cases si <;> rfl
  | getCompact => cases co <;> rfl
  | setLevel v => cases v <;> simp [ECOp.step, ECState.setLevel, PyArg.toInt, acceptedSilent, seenSilent]
  | setSilent v => cases v <;> rfl
  | setCompact v => cases v <;> rfl
  | event n ex => exact (event_seen n ex _).2.1

theorem seen_step_compact (s : ECState) (op : ECOp) :
    seenCompact (op.step s) = (match acceptedCompact op with | some b => b | none => seenCompact s) := by
  obtain ⟨l, si, co⟩ := s
  cases op with
  | getLevel => cases l <;> rfl
  | getSilent => cases si <;> rfl
  | getCompact => cases co <;> rfl
  | setLevel v => cases v <;> simp [ECOp.step, ECState.setLevel, PyArg.toInt, acceptedCompact, seenCompact]
  | setSilent v => cases v <;> rfl
  | setCompact v => cases v <;> rfl
  | event n ex => exact (event_seen n ex _).2.2

theorem run_seen {α : Type} (obs : ECState → α) {β : Type} (acc : ECOp → Option β) (val : β → α)
    (hstep : ∀ s op, obs (ECOp.step s op) = (match acc op with | some b => val b | none => obs s))
    (ops : List ECOp) (s : ECState) :
    obs (ECOp.run s ops) = (match lastAccepted acc ops with | some b => val b | none => obs s) := by
  induction ops generalizing s with
  | nil => rfl
  | cons op ops ih =>
    show obs (ECOp.run (ECOp.step s op) ops) = _
    rw [ih]
    simp only [lastAccepted, List.reverse_cons, List.findSome?_append]
    cases h : List.findSome? acc ops.reverse with
    | some b => simp
    | none => simp [hstep, List.findSome?]; cases acc op <;> rfl

/-- **C19.** After any history on a new object the level is the clamp to 0..5 of the last accepted
assignment (4 if there is none), and each flag is the last bool assigned to it (False if none):
rejected assignments, reads and events change nothing a client can see. -/
theorem C19_settings_after_history (ops : List ECOp) :
    (ECOp.run {} ops).getLevel.1 = ((lastAccepted acceptedLevel ops).map clamp05).getD 4 ∧
    (ECOp.run {} ops).getSilent.1 = (lastAccepted acceptedSilent ops).getD false ∧
    (ECOp.run {} ops).getCompact.1 = (lastAccepted acceptedCompact ops).getD false := by
  have g1 : ∀ s : ECState, s.getLevel.1 = seenLevel s := by
    intro ⟨l, _, _⟩; cases l <;> rfl
  have g2 : ∀ s : ECState, s.getSilent.1 = seenSilent s := by
    intro ⟨_, l, _⟩; cases l <;> rfl
  have g3 : ∀ s : ECState, s.getCompact.1 = seenCompact s := by
    intro ⟨_, _, l⟩; cases l <;> rfl
  refine ⟨?_, ?_, ?_⟩
  · rw [g1, run_seen seenLevel acceptedLevel clamp05
      (by intro s op; rw [seen_step_level]; cases acceptedLevel op <;> rfl)]
    cases lastAccepted acceptedLevel ops <;> rfl
  · rw [g2, run_seen seenSilent acceptedSilent id (by intro s op; rw [seen_step_silent]; cases acceptedSilent op <;> rfl)]
    cases lastAccepted acceptedSilent ops <;> rfl
  · rw [g3, run_seen seenCompact acceptedCompact id (by intro s op; rw [seen_step_compact]; cases acceptedCompact op <;> rfl)]
    cases lastAccepted acceptedCompact ops <;> rfl

/-- **C19 (range).** The level a client reads is always within 0..5. -/
theorem C19_level_in_range (ops : List ECOp) : (ECOp.run {} ops).getLevel.1 ≤ 5 := by
  rw [(C19_settings_after_history ops).1]
  cases lastAccepted acceptedLevel ops with
  | none => decide
  | some i => simp only [Option.map_some, Option.getD_some, clamp05]; split <;> (try split) <;> omega

/-- **C19 (rejections).** Exactly the non-integers are rejected by the level, exactly the non-bools by the flags. -/
theorem C19_rejections (s : ECState) (v : PyArg) :
    ((ECState.setLevel v s).1 = .ok () ↔ ∀ e, v ≠ .other e) ∧
    ((ECState.setSilent v s).1 = if ∃ b, v = .bool b then .ok () else .exc .typeError) ∧
    ((ECState.setCompact v s).1 = if ∃ b, v = .bool b then .ok () else .exc .typeError) := by
  cases v <;> simp [ECState.setLevel, ECState.setSilent, ECState.setCompact, PyArg.toInt]

example : (ECOp.run {} [.setLevel (.int 9), .setSilent (.int 1), .setLevel (.other .valueError),
    .event py!"WARNING" (.exc .keyError)]).getLevel.1 = 5 := by decide
example : (ECOp.run {} [.setLevel (.int (-3)), .setCompact (.bool true)]).getCompact.1 = true := by decide

end CPE.Props
