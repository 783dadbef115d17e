import Verif.Proofs.GenConfig
import Verif.Props.LoadEnv
/-
C56: GenConfig: the complete configuration, the validation of config-specs.ini and the list of configurations.
-/
namespace CPE.Props
open CPE CPE.Spec CPE.SetEnv CPE.KW CPE.KW.Spec

section
variable {T : Tool}

theorem andThen_ok {α β : Type} {r : Out α} {f : α → Out β} {b : β} : andThen r f = .ok b ↔ ∃ a, r = .ok a ∧ f a = .ok b := by
  cases r with
  | ok a => exact ⟨fun h => ⟨a, rfl, h⟩, fun ⟨a', h, h'⟩ => by cases h; exact h'⟩
  | exc e => exact ⟨(fun h => by cases h), fun ⟨a', h, h'⟩ => by cases h⟩
  | diverge => exact ⟨(fun h => by cases h), fun ⟨a', h, h'⟩ => by cases h⟩

theorem parsedRes_iff (b : Str) (f : Bool) (q : Str) : parsedRes T b f = .ok q ↔ EnvironmentIs T b f q := by
  obtain ⟨_, h, _⟩ := parsed_step (leInv_new (T := T) b f)
  rw [← C55_environment, h]; rfl

theorem parsedRes_eq (b : Str) (f : Bool) : parsedRes T b f = (LE.getParsedEnvName T (LE.new b f)).1 := by
  obtain ⟨_, h, _⟩ := parsed_step (leInv_new (T := T) b f)
  rw [h]; rfl

variable {d : Options} {o1 : CObj}

theorem textRes_eq (hr : edGetItem (cls T.flags) T.fuel flagSection (Obj.fresh (cls T.flags) ()) = (.ok d, o1)) {b : Str} {k : CKP}
    (hk : CKP.new (cls T.flags) T.fuel b = .ok k) : (CKP.selectedOptionsStr (cls T.flags) T.fuel k).1 = textRes d b := by
  obtain ⟨k', h1, h2, h3⟩ := ckpNew_read hr b
  rw [hk] at h1; cases h1
  obtain ⟨k2, h4, _⟩ := text_step (getItem_again hr T.fuel) h2
  rw [h4, h3]

theorem textRes_iff (hr : edGetItem (cls T.flags) T.fuel flagSection (Obj.fresh (cls T.flags) ()) = (.ok d, o1)) (b o : Str) :
    textRes d b = .ok o ↔ OptionsAre T b o := by
  obtain ⟨k, h1, _⟩ := ckpNew_read hr b
  constructor
  · intro h; exact ⟨k, h1, by rw [textRes_eq hr h1, h]⟩
  · rintro ⟨k', h1', h2⟩; rw [← textRes_eq hr h1', h2]

theorem completeRes_iff (hr : edGetItem (cls T.flags) T.fuel flagSection (Obj.fresh (cls T.flags) ()) = (.ok d, o1)) (b : Str) (f : Bool)
    (c : Str) : completeRes T d b f = .ok c ↔ ConfigIs T b f c := by
  rw [completeRes, andThen_ok]
  constructor
  · rintro ⟨q, h1, h2⟩
    obtain ⟨o, h4, h3⟩ := andThen_ok.1 h2
    cases h3
    exact ⟨q, o, (parsedRes_iff b f q).1 h1, (textRes_iff hr b o).1 h4, rfl⟩
  · rintro ⟨q, o, h1, h2, rfl⟩
    exact ⟨q, (parsedRes_iff b f q).2 h1, andThen_ok.2 ⟨o, (textRes_iff hr b o).2 h2, rfl⟩⟩

theorem canonRes_iff (hr : edGetItem (cls T.flags) T.fuel flagSection (Obj.fresh (cls T.flags) ()) = (.ok d, o1)) (b : Str) (f : Bool)
    (c : Str) : canonRes T d f b = .ok c ↔ ConfigIs T b f c := by
  rw [← completeRes_iff hr, completeRes, canonRes, andThen_ok, andThen_ok]
  constructor
  · rintro ⟨o, h1, h2⟩
    obtain ⟨q, h2, h3⟩ := andThen_ok.1 h2
    exact ⟨q, h2, andThen_ok.2 ⟨o, h1, h3⟩⟩
  · rintro ⟨q, h1, h2⟩
    obtain ⟨o, h2, h3⟩ := andThen_ok.1 h2
    exact ⟨o, h2, andThen_ok.2 ⟨q, h1, h3⟩⟩

/-- Whether the section of flags can be read. -/
theorem flags_cases (b : Str) : (∃ d o1, edGetItem (cls T.flags) T.fuel flagSection (Obj.fresh (cls T.flags) ()) = (.ok d, o1)) ∨
    (∀ k, CKP.new (cls T.flags) T.fuel b ≠ .ok k) := by
  by_cases h : ∃ k, CKP.new (cls T.flags) T.fuel b = .ok k
  · obtain ⟨k, hk⟩ := h
    obtain ⟨d, o1, hr, _⟩ := ckpNew_ok hk
    exact .inl ⟨d, o1, hr⟩
  · exact .inr fun k hk => h ⟨k, hk⟩

theorem blank_complete (b : Str) (f : Bool) (h : ∀ k, CKP.new (cls T.flags) T.fuel b ≠ .ok k) :
    (GC.completeConfig T (GC.new b f)).1 = stuck (CKP.new (cls T.flags) T.fuel b) ∧
    (GC.validate T (GC.new b f)).1 = stuck (CKP.new (cls T.flags) T.fuel b) := by
  have hl : GC.loadCkp T (GC.new b f) = (stuck (CKP.new (cls T.flags) T.fuel b), GC.new b f) := by
    unfold GC.loadCkp
    show (match CKP.new (cls T.flags) T.fuel b with
      | .ok k => (Out.ok (), { (GC.new b f) with ckp := some k })
      | .exc e => (Out.exc e, GC.new b f)
      | .diverge => (Out.diverge, GC.new b f)) = _
    cases hx : CKP.new (cls T.flags) T.fuel b with
    | ok k => exact absurd hx (h k)
    | exc e => rfl
    | diverge => rfl
  unfold GC.completeConfig GC.validate
  rw [M.read_bind]
  show ((GC.loadCkp T >>= _) (GC.new b f)).1 = _ ∧ _
  cases hx : CKP.new (cls T.flags) T.fuel b with
  | ok k => exact absurd hx (h k)
  | exc e => rw [hx] at hl; rw [M.bind_exc hl, M.bind_exc hl]; exact ⟨rfl, rfl⟩
  | diverge => rw [hx] at hl; rw [M.bind_diverge hl, M.bind_diverge hl]; exact ⟨rfl, rfl⟩

/-- C56: `complete_config` is the configuration of the build name. -/
theorem C56_complete (b : Str) (f : Bool) (c : Str) : (GC.completeConfig T (GC.new b f)).1 = .ok c ↔ ConfigIs T b f c := by
  rcases flags_cases (T := T) b with ⟨d, o1, hr⟩ | hn
  · obtain ⟨_, h, _⟩ := complete_step hr (gInv_new (T := T) b f)
    rw [h]
    exact completeRes_iff hr b f c
  · rw [(blank_complete b f hn).1]
    constructor
    · intro h
      cases hx : CKP.new (cls T.flags) T.fuel b <;> rw [hx] at h <;> cases h
    · rintro ⟨_, _, _, ⟨k, hk, _⟩, _⟩
      exact absurd hk (hn k)

/-- C56: it raises what the first of the tools that fails raises: reading the flags, the environment, the options. -/
theorem C56_failures (b : Str) (f : Bool) (e : PyExc) :
    (CKP.new (cls T.flags) T.fuel b = .exc e → (GC.completeConfig T (GC.new b f)).1 = .exc e) ∧
    (∀ k, CKP.new (cls T.flags) T.fuel b = .ok k → (LE.getParsedEnvName T (LE.new b f)).1 = .exc e →
      (GC.completeConfig T (GC.new b f)).1 = .exc e) ∧
    (∀ k q, CKP.new (cls T.flags) T.fuel b = .ok k → EnvironmentIs T b f q →
      (CKP.selectedOptionsStr (cls T.flags) T.fuel k).1 = .exc e → (GC.completeConfig T (GC.new b f)).1 = .exc e) := by
  refine ⟨fun h => ?_, fun k hk h => ?_, fun k q hk hq h => ?_⟩
  · rw [(blank_complete b f (by intro k hk; rw [h] at hk; cases hk)).1, h]; rfl
  · obtain ⟨d, o1, hr, _⟩ := ckpNew_ok hk
    obtain ⟨_, h', _⟩ := complete_step hr (gInv_new (T := T) b f)
    rw [h']
    show completeRes T d b f = _
    rw [completeRes, parsedRes_eq, h]; rfl
  · obtain ⟨d, o1, hr, _⟩ := ckpNew_ok hk
    obtain ⟨_, h', _⟩ := complete_step hr (gInv_new (T := T) b f)
    rw [h']
    show completeRes T d b f = _
    rw [completeRes, (parsedRes_iff b f q).2 hq]
    show andThen (textRes d b) _ = _
    rw [← textRes_eq hr hk, h]; rfl

/-- The loop when all sections have a configuration. -/
theorem loop_ok (hr : edGetItem (cls T.flags) T.fuel flagSection (Obj.fresh (cls T.flags) ()) = (.ok d, o1)) {ss : List Str}
    (h : ∀ s ∈ ss, T.host.upper s ≠ s → ∃ c, ConfigIs T s true c) :
    ∃ bad, loopRes T d true ss = .ok bad ∧
      (bad ≠ [] ↔ ∃ s ∈ ss, T.host.upper s ≠ s ∧ ∃ c, ConfigIs T s true c ∧ c ≠ s) := by
  induction ss with
  | nil => exact ⟨[], rfl, by simp⟩
  | cons s ss ih =>
    obtain ⟨bad, h1, h2⟩ := ih fun x hx => h x (List.mem_cons_of_mem _ hx)
    rw [loopRes]
    by_cases hu : T.host.upper s = s
    · rw [if_pos hu]
      refine ⟨bad, h1, h2.trans ⟨?_, ?_⟩⟩
      · rintro ⟨x, hx, r⟩; exact ⟨x, List.mem_cons_of_mem _ hx, r⟩
      · rintro ⟨x, hx, hx', r⟩
        rcases List.mem_cons.1 hx with rfl | hx
        · exact absurd hu hx'
        · exact ⟨x, hx, hx', r⟩
    · rw [if_neg hu]
      obtain ⟨c, hc⟩ := h s (List.mem_cons_self ..) hu
      rw [(canonRes_iff hr s true c).2 hc, h1]
      refine ⟨_, rfl, ?_⟩
      by_cases hcs : c ≠ s
      · rw [if_pos hcs]
        exact ⟨fun _ => ⟨s, List.mem_cons_self .., hu, c, hc, hcs⟩, fun _ => by simp⟩
      · rw [if_neg hcs]
        refine h2.trans ⟨?_, ?_⟩
        · rintro ⟨x, hx, r⟩; exact ⟨x, List.mem_cons_of_mem _ hx, r⟩
        · rintro ⟨x, hx, hx', c', hc', r⟩
          rcases List.mem_cons.1 hx with rfl | hx
          · have := (canonRes_iff hr x true c').2 hc'
            rw [(canonRes_iff hr x true c).2 hc] at this
            cases this; exact absurd r hcs
          · exact ⟨x, hx, hx', c', hc', r⟩

theorem loop_all (hr : edGetItem (cls T.flags) T.fuel flagSection (Obj.fresh (cls T.flags) ()) = (.ok d, o1)) {ss : List Str}
    {bad : List (Str × Str)} (h : loopRes T d true ss = .ok bad) : ∀ s ∈ ss, T.host.upper s ≠ s → ∃ c, ConfigIs T s true c := by
  induction ss generalizing bad with
  | nil => intro s hs; cases hs
  | cons s ss ih =>
    rw [loopRes] at h
    by_cases hu : T.host.upper s = s
    · rw [if_pos hu] at h
      intro x hx hx'
      rcases List.mem_cons.1 hx with rfl | hx
      · exact absurd hu hx'
      · exact ih h x hx hx'
    · rw [if_neg hu] at h
      obtain ⟨c, h1, h2⟩ := andThen_ok.1 h
      obtain ⟨rest, h3, _⟩ := andThen_ok.1 h2
      intro x hx hx'
      rcases List.mem_cons.1 hx with rfl | hx
      · exact ⟨c, (canonRes_iff hr x true c).1 h1⟩
      · exact ih h3 x hx hx'

theorem loop_exc (hr : edGetItem (cls T.flags) T.fuel flagSection (Obj.fresh (cls T.flags) ()) = (.ok d, o1)) {pre post : List Str} {s : Str}
    (h : ∀ x ∈ pre, T.host.upper x ≠ x → ∃ c, ConfigIs T x true c) (hs : T.host.upper s ≠ s) {e : PyExc}
    (he : canonRes T d true s = .exc e) : loopRes T d true (pre ++ s :: post) = .exc e := by
  induction pre with
  | nil =>
    show loopRes T d true (s :: post) = _
    rw [loopRes, if_neg hs, he]; rfl
  | cons x pre ih =>
    have ih := ih fun y hy => h y (List.mem_cons_of_mem _ hy)
    show loopRes T d true (x :: (pre ++ s :: post)) = _
    rw [loopRes]
    by_cases hu : T.host.upper x = x
    · rw [if_pos hu, ih]
    · rw [if_neg hu]
      obtain ⟨c, hc⟩ := h x (List.mem_cons_self ..) hu
      rw [(canonRes_iff hr x true c).2 hc, ih]; rfl

/-- C56: the validation succeeds exactly when every section of config-specs.ini that is not all upper case is named by its own
configuration. -/
theorem C56_validate (b : Str) (f : Bool) :
    (GC.validate T (GC.new b f)).1 = .ok () ↔ (∃ k, CKP.new (cls T.flags) T.fuel b = .ok k) ∧ ∀ s, Checked T s → ConfigIs T s true s := by
  rcases flags_cases (T := T) b with ⟨d, o1, hr⟩ | hn
  · obtain ⟨_, h, _⟩ := validate_step hr (gInv_new (T := T) b f)
    obtain ⟨k, hk, _⟩ := ckpNew_read hr b
    rw [h]
    show validateRes T d = _ ↔ _
    rw [validateRes]
    constructor
    · intro h
      obtain ⟨bad, h1, h2⟩ := andThen_ok.1 h
      have hall := loop_all hr h1
      obtain ⟨bad', h1', h3⟩ := loop_ok hr hall
      rw [h1] at h1'; cases h1'
      refine ⟨⟨k, hk⟩, fun s hs => ?_⟩
      by_cases hb : bad ≠ []
      · rw [if_pos hb] at h2; cases h2
      · obtain ⟨c, hc⟩ := hall s hs.1 hs.2
        by_cases hcs : c = s
        · rw [hcs] at hc; exact hc
        · exact absurd (h3.2 ⟨s, hs.1, hs.2, c, hc, hcs⟩) hb
    · rintro ⟨_, h⟩
      obtain ⟨bad, h1, h3⟩ := loop_ok hr (ss := T.specs.sectionNames) fun s h1 h2 => ⟨s, h s ⟨h1, h2⟩⟩
      rw [h1]
      show (if bad ≠ [] then Out.exc PyExc.valueError else Out.ok ()) = _
      rw [if_neg]
      intro hb
      obtain ⟨s, hs, hs', c, hc, hcs⟩ := h3.1 hb
      have h4 := (canonRes_iff hr s true c).2 hc
      rw [(canonRes_iff hr s true s).2 (h s ⟨hs, hs'⟩)] at h4
      cases h4; exact hcs rfl
  · rw [(blank_complete b f hn).2]
    constructor
    · intro h
      cases hx : CKP.new (cls T.flags) T.fuel b <;> rw [hx] at h <;> cases h
    · rintro ⟨⟨k, hk⟩, _⟩
      exact absurd hk (hn k)

/-- C56: when all these sections have a configuration and one is named differently, the validation raises ValueError. -/
theorem C56_validate_names (b : Str) (f : Bool) (hk : ∃ k, CKP.new (cls T.flags) T.fuel b = .ok k)
    (hall : ∀ s, Checked T s → ∃ c, ConfigIs T s true c) {s c : Str} (hs : Checked T s) (hc : ConfigIs T s true c) (hcs : c ≠ s) :
    (GC.validate T (GC.new b f)).1 = .exc .valueError := by
  obtain ⟨k, hk⟩ := hk
  obtain ⟨d, o1, hr, _⟩ := ckpNew_ok hk
  obtain ⟨_, h, _⟩ := validate_step hr (gInv_new (T := T) b f)
  rw [h]
  show validateRes T d = _
  obtain ⟨bad, h1, h3⟩ := loop_ok hr (ss := T.specs.sectionNames) fun s h1 h2 => hall s ⟨h1, h2⟩
  rw [validateRes, h1]
  show (if bad ≠ [] then Out.exc PyExc.valueError else Out.ok ()) = _
  rw [if_pos (h3.2 ⟨s, hs.1, hs.2, c, hc, hcs⟩)]

/-- C56: otherwise it raises what the first section without a configuration makes the tools raise, the options first. -/
theorem C56_validate_raises (b : Str) (f : Bool) {pre post : List Str} {s : Str} (he : T.specs.sectionNames = pre ++ s :: post)
    (hs : T.host.upper s ≠ s) (hpre : ∀ x ∈ pre, T.host.upper x ≠ x → ∃ c, ConfigIs T x true c) (e : PyExc) {k : CKP}
    (hk : CKP.new (cls T.flags) T.fuel s = .ok k) :
    ((CKP.selectedOptionsStr (cls T.flags) T.fuel k).1 = .exc e → (GC.validate T (GC.new b f)).1 = .exc e) ∧
    (∀ o, OptionsAre T s o → (LE.getParsedEnvName T (LE.new s true)).1 = .exc e → (GC.validate T (GC.new b f)).1 = .exc e) := by
  obtain ⟨d, o1, hr, _⟩ := ckpNew_ok hk
  obtain ⟨_, h, _⟩ := validate_step hr (gInv_new (T := T) b f)
  rw [h]
  show (_ → validateRes T d = _) ∧ (∀ o, _ → _ → validateRes T d = _)
  have key : canonRes T d true s = .exc e → validateRes T d = .exc e := by
    intro h
    rw [validateRes, he, loop_exc hr hpre hs h]; rfl
  refine ⟨fun h => key ?_, fun o ho h => key ?_⟩
  · rw [canonRes, ← textRes_eq hr hk, h]; rfl
  · rw [canonRes, (textRes_iff hr s o).2 ho]
    show andThen (parsedRes T s true) _ = _
    rw [parsedRes_eq, h]; rfl

/-- C56: after any history in which no validation failed an operation gets what it gets on a new object: neither a validation nor
the order of the operations changes an answer. -/
theorem C56_history (b : Str) (f : Bool) (ops : List GcOp) (hc : GcOp.Clean T ops (GC.new b f)) (op : GcOp) :
    (GcOp.exec T op (GcOp.run T ops (GC.new b f))).1 = (GcOp.exec T op (GC.new b f)).1 := by
  rcases flags_cases (T := T) b with ⟨d, o1, hr⟩ | hn
  · obtain ⟨h1, h2, h3⟩ := gc_run hr ops (gInv_new (T := T) b f) hc
    obtain ⟨_, e1, _⟩ := gc_exec hr h1 op
    obtain ⟨_, e2, _⟩ := gc_exec hr (gInv_new (T := T) b f) op
    rw [e1, e2, h2, h3]
  · obtain ⟨h1, h2, h3⟩ := blank_run ops (gBlank_new (T := T) b f) hn
    obtain ⟨_, e1, _⟩ := blank_exec h1 (by rw [h2]; exact hn) op
    obtain ⟨_, e2, _⟩ := blank_exec (gBlank_new (T := T) b f) hn op
    rw [e1, e2, h2, h3]

/-- C56: the options are those of `complete_config` if the validation succeeds; a failure of the validation is passed on. -/
theorem C56_for_options (b : Str) (f : Bool) :
    ((GC.validate T (GC.new b f)).1 = .ok () → (GC.configForOptions T (GC.new b f)).1 = (GC.completeConfig T (GC.new b f)).1) ∧
    (∀ e, (GC.validate T (GC.new b f)).1 = .exc e → (GC.configForOptions T (GC.new b f)).1 = .exc e) := by
  rcases flags_cases (T := T) b with ⟨d, o1, hr⟩ | hn
  · obtain ⟨g1, h1, h2, _, h4, _⟩ := validate_step hr (gInv_new (T := T) b f)
    obtain ⟨_, e1, _⟩ := complete_step hr (gInv_new (T := T) b f)
    unfold GC.configForOptions
    rw [M.read_bind, if_pos (show (GC.new b f).validated = false from rfl), e1]
    constructor
    · intro h
      rw [h1] at h
      replace h : validateRes T d = .ok () := h
      obtain ⟨_, e2, _⟩ := complete_step hr (h4 h).1
      rw [h] at h1
      rw [M.bind_ok h1, e2, h2.1, h2.2]
    · intro e h
      rw [h1] at h
      replace h : validateRes T d = .exc e := h
      rw [h] at h1
      rw [M.bind_exc h1]
  · unfold GC.configForOptions
    rw [M.read_bind, if_pos (show (GC.new b f).validated = false from rfl)]
    have hv := (blank_complete b f hn).2
    refine ⟨fun h => ?_, fun e h => ?_⟩
    · rw [h] at hv
      cases hx : CKP.new (cls T.flags) T.fuel b <;> rw [hx] at hv <;> cases hv
    · rw [M.bind_exc (show GC.validate T (GC.new b f) = (.exc e, (GC.validate T (GC.new b f)).2) from Prod.ext h rfl)]

/-- C56: if the validation succeeds, then after any history, whatever failed in it, an operation gets what it gets on a new
object. -/
theorem C56_history_valid (b : Str) (f : Bool) (hv : (GC.validate T (GC.new b f)).1 = .ok ()) (ops : List GcOp) (op : GcOp) :
    (GcOp.exec T op (GcOp.run T ops (GC.new b f))).1 = (GcOp.exec T op (GC.new b f)).1 := by
  rcases flags_cases (T := T) b with ⟨d, o1, hr⟩ | hn
  · obtain ⟨_, h, _⟩ := validate_step hr (gInv_new (T := T) b f)
    rw [h] at hv
    obtain ⟨h1, h2, h3⟩ := gc_run_valid hr hv ops (gInv_new (T := T) b f)
    obtain ⟨_, e1, _⟩ := gc_exec hr h1 op
    obtain ⟨_, e2, _⟩ := gc_exec hr (gInv_new (T := T) b f) op
    rw [e1, e2, h2, h3]
  · rw [(blank_complete b f hn).2] at hv
    cases hx : CKP.new (cls T.flags) T.fuel b <;> rw [hx] at hv <;> cases hv

/-- C56: the configuration that the options are generated for is after any history that of a new object; also after a failed
validation, since the validation is then done again and fails in the same way. -/
theorem C56_options_history (b : Str) (f : Bool) (ops : List GcOp) :
    (GC.configForOptions T (GcOp.run T ops (GC.new b f))).1 = (GC.configForOptions T (GC.new b f)).1 := by
  have hunwrap : ∀ {g g' : GC}, (GcOp.exec T .configForOptions g).1 = (GcOp.exec T .configForOptions g').1 →
      (GC.configForOptions T g).1 = (GC.configForOptions T g').1 := by
    intro g g' h
    have e1 := wrap_step (show GC.configForOptions T g = ((GC.configForOptions T g).1, (GC.configForOptions T g).2) from rfl) GcVal.str
    have e2 := wrap_step (show GC.configForOptions T g' = ((GC.configForOptions T g').1, (GC.configForOptions T g').2) from rfl) GcVal.str
    rw [show GcOp.exec T .configForOptions g = _ from e1, show GcOp.exec T .configForOptions g' = _ from e2] at h
    generalize (GC.configForOptions T g).1 = x at h
    generalize (GC.configForOptions T g').1 = y at h
    cases x <;> cases y <;> first | rfl | (cases h; rfl) | cases h
  rcases flags_cases (T := T) b with ⟨d, o1, hr⟩ | hn
  · obtain ⟨_, h, _⟩ := validate_step hr (gInv_new (T := T) b f)
    by_cases hv : validateRes T d = .ok ()
    · exact hunwrap (C56_history_valid b f (by rw [h]; exact hv) ops .configForOptions)
    · rw [(options_weak hr (gc_run_weak hr hv ops (gWeak_new b f)) hv).1, (options_weak hr (gWeak_new b f) hv).1]
  · apply hunwrap
    obtain ⟨h1, h2, h3⟩ := blank_run ops (gBlank_new (T := T) b f) hn
    obtain ⟨_, e1, _⟩ := blank_exec h1 (by rw [h2]; exact hn) .configForOptions
    obtain ⟨_, e2, _⟩ := blank_exec (gBlank_new (T := T) b f) hn .configForOptions
    rw [e1, e2, h2, h3]

theorem lastChecked_split {pre post : List Str} {s : Str} (hs : T.host.upper s ≠ s) (hpost : ∀ x ∈ post, T.host.upper x = x) :
    lastChecked (T := T) (pre ++ s :: post) = some s := by
  have hnone : lastChecked (T := T) post = none := by
    induction post with
    | nil => rfl
    | cons x post ih =>
      rw [lastChecked, ih fun y hy => hpost y (List.mem_cons_of_mem _ hy)]
      dsimp only
      rw [if_pos (hpost x (List.mem_cons_self ..))]
  induction pre with
  | nil =>
    show lastChecked (T := T) (s :: post) = _
    rw [lastChecked, hnone]; dsimp only; rw [if_neg hs]
  | cons x pre ih =>
    show lastChecked (T := T) (x :: (pre ++ s :: post)) = _
    rw [lastChecked, ih]

/-- C56: a validation that raised ValueError because of the names leaves the object on the last section it looked at: the next
`complete_config` is the configuration of that section, whatever the build name, and stays so. -/
theorem C56_after_failed_validation (b : Str) (f : Bool) (hk : ∃ k, CKP.new (cls T.flags) T.fuel b = .ok k)
    (hall : ∀ s, Checked T s → ∃ c, ConfigIs T s true c) (hbad : ∃ s c, Checked T s ∧ ConfigIs T s true c ∧ c ≠ s)
    {pre post : List Str} {s c : Str} (he : T.specs.sectionNames = pre ++ s :: post) (hs : T.host.upper s ≠ s)
    (hpost : ∀ x ∈ post, T.host.upper x = x) (hc : ConfigIs T s true c) (ops : List GcOp) (hops : ∀ op ∈ ops, op = .completeConfig) :
    (GC.completeConfig T (GcOp.run T ops (GC.validate T (GC.new b f)).2)).1 = .ok c := by
  obtain ⟨k, hk⟩ := hk
  obtain ⟨d, o1, hr, _⟩ := ckpNew_ok hk
  obtain ⟨g', h, _, h3, _, h5⟩ := validate_step hr (gInv_new (T := T) b f)
  obtain ⟨bad, h1, h2⟩ := loop_ok hr (ss := T.specs.sectionNames) fun s h1 h2 => hall s ⟨h1, h2⟩
  have hb : bad ≠ [] := by
    obtain ⟨s, c, ⟨a1, a2⟩, a3, a4⟩ := hbad
    exact h2.2 ⟨s, a1, a2, c, a3, a4⟩
  obtain ⟨k1, l1, i1, i2, i3, i4, i5, i6, i7⟩ := h5 bad s h1 hb (by rw [he]; exact lastChecked_split hs hpost)
  rw [h]
  replace h3 : g'.complete = none := h3
  have hcomp : ∃ g2, GC.completeConfig T g' = (.ok c, g2) ∧ g2.complete = some c := by
    obtain ⟨g2, k2, l2, e1, e2, _⟩ := complete_core hr i1 i2 i3 i4 (i6.trans i5.symm)
    have hcr : completeRes T d l1.buildName l1.force = .ok c := by rw [i6, i7]; exact (completeRes_iff hr s true c).2 hc
    rw [hcr] at e1 e2
    refine ⟨g2, ?_, by rw [e2]⟩
    unfold GC.completeConfig
    rw [M.read_bind, h3]
    dsimp only
    have l1' : GC.loadCkp T g' = (.ok (), g') := by unfold GC.loadCkp; rw [i1]
    have l2' : GC.loadLE g' = (.ok (), g') := by
      show (Out.ok (), match g'.le with | some _ => g' | none => { g' with le := some (LE.new g'.buildName g'.force) }) = _
      rw [i2]
    rw [M.bind_ok l1', M.bind_ok l2']
    exact e1
  obtain ⟨g2, e1, e2⟩ := hcomp
  have hstay : ∀ ops : List GcOp, (∀ op ∈ ops, op = .completeConfig) → ∀ g : GC, g.complete = some c →
      (GC.completeConfig T (GcOp.run T ops g)).1 = .ok c := by
    intro ops
    induction ops with
    | nil =>
      intro _ g hg
      show (GC.completeConfig T g).1 = _
      unfold GC.completeConfig; rw [M.read_bind, hg]; rfl
    | cons op ops ih =>
      intro ho g hg
      have : op = .completeConfig := ho op (List.mem_cons_self ..)
      subst this
      have hg' : GC.completeConfig T g = (.ok c, g) := by unfold GC.completeConfig; rw [M.read_bind, hg]; rfl
      rw [GcOp.run, GcOp.exec, wrap_step hg']
      exact ih (fun op h => ho op (List.mem_cons_of_mem _ h)) g hg
  cases ops with
  | nil => show (GC.completeConfig T g').1 = _; rw [e1]
  | cons op ops =>
    have : op = .completeConfig := hops op (List.mem_cons_self ..)
    subst this
    rw [GcOp.run, GcOp.exec, wrap_step e1]
    exact hstay ops (fun op h => hops op (List.mem_cons_of_mem _ h)) g2 e2

theorem startsWith_iff (a b : Str) : startsWith a b = true ↔ ∃ t, b = a ++ t := by
  induction a generalizing b with
  | nil => simp [startsWith]
  | cons x a ih =>
    cases b with
    | nil => simp [startsWith]
    | cons y b =>
      rw [startsWith, Bool.and_eq_true, ih]
      simp only [beq_iff_eq, List.cons_append, List.cons.injEq]
      constructor
      · rintro ⟨rfl, t, rfl⟩; exact ⟨t, rfl, rfl⟩
      · rintro ⟨t, rfl, rfl⟩; exact ⟨rfl, t, rfl⟩

/-- C56: `list_configs` lists the sections of config-specs.ini whose name begins with the name of the system, in the order of the file;
if the system cannot be determined it raises the same. -/
theorem C56_list (b : Str) (f : Bool) :
    (∀ s, SystemIs T b f s → ∃ l, (GC.listConfigs T (GC.new b f)).1 = .ok l ∧
      ∀ p : Str → Bool, (∀ c, p c = true ↔ ∃ t, c = s ++ t) → l = T.specs.sectionNames.filter p) ∧
    (∀ e, (DS.systemName (cls T.systems) T.fuel T.host (DS.new (cls T.systems) b f)).1 = .exc e →
      (GC.listConfigs T (GC.new b f)).1 = .exc e) := by
  obtain ⟨l, h, _⟩ := list_step (T := T) (g := GC.new b f) (fun l h => by cases h)
  rw [h]
  show (∀ s, _ → ∃ l, listRes T b f = _ ∧ _) ∧ (∀ e, _ → listRes T b f = _)
  constructor
  · intro s hs
    refine ⟨(edKeys (cls T.specs)).filter fun c => startsWith s c, ?_, fun p hp => ?_⟩
    · rw [listRes, show sysRes T b f = .ok (some s) from hs]; rfl
    · refine List.filter_congr fun c _ => ?_
      rw [Bool.eq_iff_iff, hp, startsWith_iff]
  · intro e he
    rw [listRes, show sysRes T b f = .exc e from he]; rfl

end

/-! ### Concrete cases -/

/-- The tools with a sound config-specs.ini. -/
def toolGood : Tool := { tool0 with specs := { sections := [
  (py!"COMMON", []), (py!"machine-1_gnu-9-openmpi_mpi_none", []), (py!"machine-2_arm-20_no-mpi_belos_teko", [])] } }

/-- The tools with a config-specs.ini in which a section is not named canonically. -/
def toolBad : Tool := { tool0 with specs := { sections := [
  (py!"COMMON", []), (py!"machine-1_gnu_mpi_none", []), (py!"machine-2_arm-20_no-mpi_belos_teko", []), (py!"MORE", [])] } }

example : (GC.completeConfig toolGood (GC.new py!"teko_gnu" false)).1 = .ok py!"machine-1_gnu-9-openmpi_mpi_teko" ∧
    (GC.validate toolGood (GC.new py!"teko_gnu" false)).1 = .ok () ∧
    (GC.validate toolBad (GC.new py!"teko_gnu" false)).1 = .exc .valueError ∧
    (GC.configForOptions toolGood (GC.new py!"teko_gnu" false)).1 = .ok py!"machine-1_gnu-9-openmpi_mpi_teko" ∧
    (GC.listConfigs toolGood (GC.new py!"teko_gnu" false)).1 = .ok [py!"machine-1_gnu-9-openmpi_mpi_none"] ∧
    (GC.completeConfig toolGood (GC.new py!"no-mpi_gnu_mpi" false)).1 = .exc .valueError := by decide +kernel

/-- A history without a failed validation. -/
example : GcOp.Clean toolGood [.listConfigs, .validate, .completeConfig, .configForOptions, .validate] (GC.new py!"teko_gnu" false) :=
  ⟨(fun h => by cases h), fun _ => ⟨.unit, by decide +kernel⟩, (fun h => by cases h),
    fun _ => ⟨.str py!"machine-1_gnu-9-openmpi_mpi_teko", by decide +kernel⟩, fun _ => ⟨.unit, by decide +kernel⟩, trivial⟩

/-- After a failed validation `complete_config` is that of another section. -/
example : (GC.completeConfig toolBad (GC.validate toolBad (GC.new py!"teko_gnu" false)).2).1 =
    .ok py!"machine-2_arm-20_no-mpi_belos_teko" := by decide +kernel

/-- But the options are not generated for it: the validation is done again. -/
example : (GC.configForOptions toolBad (GcOp.run toolBad [.validate, .completeConfig, .configForOptions] (GC.new py!"teko_gnu" false))).1 =
    .exc .valueError := by decide +kernel

/-- The configuration of the example, from the theorem. -/
example : ConfigIs toolBad py!"machine-1_gnu_mpi_none" true py!"machine-1_gnu-9-openmpi_mpi_none" ∧
    ConfigIs toolBad py!"machine-2_arm-20_no-mpi_belos_teko" true py!"machine-2_arm-20_no-mpi_belos_teko" :=
  ⟨(C56_complete _ _ _).1 (by decide +kernel), (C56_complete _ _ _).1 (by decide +kernel)⟩

/-- The hypotheses of C56_after_failed_validation hold. -/
example : (∃ k, CKP.new (cls toolBad.flags) toolBad.fuel py!"teko_gnu" = .ok k) ∧
    (∀ s, Checked toolBad s → ∃ c, ConfigIs toolBad s true c) ∧ (∃ s c, Checked toolBad s ∧ ConfigIs toolBad s true c ∧ c ≠ s) ∧
    toolBad.specs.sectionNames = [py!"COMMON", py!"machine-1_gnu_mpi_none"] ++ py!"machine-2_arm-20_no-mpi_belos_teko" :: [py!"MORE"] ∧
    toolBad.host.upper py!"machine-2_arm-20_no-mpi_belos_teko" ≠ py!"machine-2_arm-20_no-mpi_belos_teko" ∧
    (∀ x ∈ [py!"MORE"], toolBad.host.upper x = x) := by
  refine ⟨⟨_, rfl⟩, ?_, ⟨py!"machine-1_gnu_mpi_none", py!"machine-1_gnu-9-openmpi_mpi_none", ⟨by decide +kernel, by decide +kernel⟩,
    (C56_complete _ _ _).1 (by decide +kernel), by decide +kernel⟩, rfl, by decide +kernel, by decide +kernel⟩
  rintro s ⟨hs, hu⟩
  have hs' : s ∈ [py!"COMMON", py!"machine-1_gnu_mpi_none", py!"machine-2_arm-20_no-mpi_belos_teko", py!"MORE"] := hs
  simp only [List.mem_cons, List.not_mem_nil, or_false] at hs'
  rcases hs' with rfl | rfl | rfl | rfl
  · exact absurd (by decide +kernel) hu
  · exact ⟨_, (C56_complete _ _ py!"machine-1_gnu-9-openmpi_mpi_none").1 (by decide +kernel)⟩
  · exact ⟨_, (C56_complete _ _ py!"machine-2_arm-20_no-mpi_belos_teko").1 (by decide +kernel)⟩
  · exact absurd (by decide +kernel) hu

/-- The hypotheses of C56_validate_raises hold: a section that names two options of a flag that takes one. -/
example : (match CKP.new (cls flagsCfg) 10 py!"machine-1_gnu_mpi_no-mpi" with
    | .ok k => (CKP.selectedOptionsStr (cls flagsCfg) 10 k).1
    | _ => .diverge) = .exc .valueError := by decide +kernel

end CPE.Props
