import Verif.Proofs.RoundTrip
import Verif.Props.Life
import Verif.Props.IniText
/-
Theorems on `unroll_to_str`: what it writes, when it raises, and that its text reads back (C26, C27).
-/
namespace CPE.Props
open Spec
variable {δ ω : Type} {K : Env δ ω} {n m : Nat} {f : Full δ ω} {s : Str}

/-! ### C26 with `use_base_class_parser=False` -/

theorem settled_level {E : Env δ ω} {o : Obj δ ω} (l : Nat) (h : Settled E s o) : Settled { E with level := l } s o := by
  refine ⟨fun hc => ?_, h.2⟩
  obtain ⟨d, h1, evs, h2, h3⟩ := h.1 hc
  exact ⟨d, h1, evs, parseTrace_level (E := { E with level := l }) (l := E.level) h2, h3⟩

theorem hasSection_of_mem {c : Cfg} (h : s ∈ c.sectionNames) : c.hasSection s = true := (Dict.mem_iff _ _).2 h

theorem configdata_frame (fs : FS) (f : Full δ ω) (l : Nat) :
    (({ f with level := l } : Full δ ω).configdata fs).1 = (f.configdata fs).1 ∧
    (({ f with level := l } : Full δ ω).configdata fs).2.obj = f.obj ∧
    (({ f with level := l } : Full δ ω).configdata fs).2.level = l := by
  unfold Full.configdata
  dsimp only
  cases f.cfg with
  | some c => exact ⟨rfl, rfl, rfl⟩
  | none => exact ⟨rfl, rfl, rfl⟩

/-- `unroll_to_str` on the object itself, once the files load. -/
theorem unrollSelf_loaded (fs : FS) {c : Cfg} (hc : (f.configdata fs).1 = .ok c) (sec : Option Str) (sp : Bool) :
    (f.unrollSelf K n fs sec sp).1 = (unrollBody { K with cfg := c, level := 0 } n sec sp f.obj).1 := by
  obtain ⟨h1, h2, h3⟩ := configdata_frame fs f 0
  unfold Full.unrollSelf
  dsimp only
  cases hx : ({ f with level := 0 } : Full δ ω).configdata fs with
  | mk x f1 =>
    rw [hx] at h1 h2 h3
    dsimp only at h1 h2 h3
    rw [h1, hc]
    dsimp only
    unfold Full.env
    rw [h2, h3]
    cases unrollBody { K with cfg := c, level := 0 } n sec sp f.obj with
    | mk y o => cases y <;> rfl

theorem unrollBody_all (E : Env δ ω) (sp : Bool) (o : Obj δ ω) : (unrollBody E n none sp o).1 =
    (genAll E n (delimOf sp) E.cfg.sectionNames o).1.map' (fun t => strip t ++ py!"\n") := by
  show (((genAll E n (delimOf sp) E.cfg.sectionNames) >>= fun t => (pure (strip t ++ py!"\n") : M (Obj δ ω) Str)) o).1 = _
  show (M.bind _ _ o).1 = _
  unfold M.bind
  cases genAll E n (delimOf sp) E.cfg.sectionNames o with
  | mk x o' => cases x <;> rfl

theorem unrollBody_one (E : Env δ ω) (sp : Bool) (o : Obj δ ω) (s : Str) : (unrollBody E n (some s) sp o).1 =
    (genSection E n (delimOf sp) s o).1.map' (fun t => strip t ++ py!"\n") := by
  show (((genSection E n (delimOf sp) s) >>= fun t => (pure (strip t ++ py!"\n") : M (Obj δ ω) Str)) o).1 = _
  show (M.bind _ _ o).1 = _
  unfold M.bind
  cases genSection E n (delimOf sp) s o with
  | mk x o' => cases x <;> rfl

theorem map'_ok {α β : Type} {g : α → β} {x : Out α} {b : β} (h : x.map' g = .ok b) : ∃ a, x = .ok a ∧ g a = b := by
  cases x with
  | ok a => cases h; exact ⟨a, rfl, rfl⟩
  | exc e => cases h
  | diverge => cases h

theorem genAll_state {E : Env δ ω} {d : Str} {l : List Str} {o : Obj δ ω} {t : Str} (h : (genAll E n d l o).1 = .ok t) :
    genAll E n d l o = (.ok t, (genAll E n d l o).2) := by rw [← h]

/-- C26, the object's own classes: after any clean history the text is the sections of the file, in file order, each
with its resolved options. -/
theorem C26_own_text {fs : FS} {c : Cfg} (hc : (f.configdata fs).1 = .ok c) (ops : List EdOp) (w : ω)
    (hobj : f.obj = EdOp.run (f.env K c) m ops (Obj.fresh (f.env K c) w))
    (hclean : ∀ s ∈ c.sectionNames, CleanFor (f.env K c) m s ops (Obj.fresh (f.env K c) w)) (sp : Bool) {text : Str}
    (h : ((FOp.unroll none sp false).exec K n fs f).1 = .ok (.text text)) :
    ∃ R : List (Str × Options), R.map Prod.fst = c.sectionNames ∧ (∀ b ∈ R, Resolved (f.env K c) b.1 b.2) ∧
      text = render sp R := by
  obtain ⟨t, h1, h2⟩ := map'_ok h
  cases h2
  have h1 : (f.unrollSelf K n fs none sp).1 = .ok text := h1
  rw [unrollSelf_loaded fs hc, unrollBody_all] at h1
  obtain ⟨t, h3, rfl⟩ := map'_ok h1
  obtain ⟨R, r1, r2, r3⟩ := genAll_ok sp _ _ (fun s hs => hasSection_of_mem hs) (fun s hs => by
    have := settled_run ops _ (settled_fresh (f.env K c) s w) (hclean s hs)
    rw [← hobj] at this
    exact settled_level 0 this) (genAll_state h3)
  refine ⟨R, r1, ?_, by rw [r3]; exact strip_render sp R⟩
  intro b hb
  obtain ⟨evs, g1, g2⟩ := r2 b hb
  exact ⟨evs, parseTrace_level (E := f.env K c) (l := 0) g1, g2⟩

/-- C26: with `section=S`, only that section. -/
theorem C26_own_section {fs : FS} {c : Cfg} (hc : (f.configdata fs).1 = .ok c) (ops : List EdOp) (w : ω)
    (hobj : f.obj = EdOp.run (f.env K c) m ops (Obj.fresh (f.env K c) w)) (hs : s ∈ c.sectionNames)
    (hclean : CleanFor (f.env K c) m s ops (Obj.fresh (f.env K c) w)) (sp : Bool) {text : Str}
    (h : ((FOp.unroll (some s) sp false).exec K n fs f).1 = .ok (.text text)) :
    ∃ d, Resolved (f.env K c) s d ∧ text = renderSection sp (s, d) := by
  obtain ⟨t, h1, h2⟩ := map'_ok h
  cases h2
  have h1 : (f.unrollSelf K n fs (some s) sp).1 = .ok text := h1
  rw [unrollSelf_loaded fs hc, unrollBody_one, genSection_apply (hasSection_of_mem hs)] at h1
  have hset := settled_run ops _ (settled_fresh (f.env K c) s w) hclean
  rw [← hobj] at hset
  cases hg : edGet { K with cfg := c, level := 0 } n s f.obj with
  | mk r o' =>
    rw [hg] at h1
    cases r with
    | exc e => cases h1
    | diverge => cases h1
    | ok d =>
      cases h1
      obtain ⟨evs, g1, g2⟩ := edGet_settled (settled_level 0 hset) hg
      exact ⟨d, ⟨evs, parseTrace_level (E := f.env K c) (l := 0) g1, g2⟩, (strip_renderSection sp (s, d)).symm ▸ rfl⟩

/-- C26: a section that is not in the file and that was not added by hand gives KeyError. -/
theorem C26_own_missing {fs : FS} {c : Cfg} (hc : (f.configdata fs).1 = .ok c) (hs : s ∉ c.sectionNames)
    (hd : Dict.get? f.obj.data s = none) (sp : Bool) :
    ((FOp.unroll (some s) sp false).exec K n fs f).1 = .exc .keyError := by
  show Out.map' _ (f.unrollSelf K n fs (some s) sp).1 = _
  have hf : ({ K with cfg := c, level := 0 } : Env δ ω).cfg.hasSection s = false := by
    cases hx : c.hasSection s with
    | false => rfl
    | true => exact absurd ((Dict.mem_iff _ _).1 hx) hs
  rw [unrollSelf_loaded fs hc, unrollBody_one, genSection_missing hf]
  unfold lookup
  rw [hd]
  rfl

/-! ### C26 with `use_base_class_parser=True` -/

/-- A new object of the base class on the files `ps`. -/
def newOn (ps : List Str) : Full Unit Unit := ((Full.new baseClass ()).setFiles (.many (ps.map some))).2

theorem pathPrefix_some (ps : List Str) : pathPrefix (ps.map some) = (ps, true) := by
  induction ps with
  | nil => rfl
  | cons p ps ih => rw [List.map_cons, pathPrefix, ih]

theorem newOn_eq (ps : List Str) : newOn ps = { files := some ps, obj := Obj.fresh baseClass () } := by
  unfold newOn Full.setFiles Full.assignFiles
  dsimp only
  rw [pathPrefix_some]
  rfl

theorem newOn_load (ps : List Str) (fs : FS) : ((newOn ps).configdata fs).1 =
    match (loadFiles fs (some ps) [['='], [':']]).1 with | .ok c => .ok c | .error e => .exc e := by
  rw [newOn_eq]; rfl

theorem newOn_names {ps : List Str} {fs : FS} {c : Cfg} (h : ((newOn ps).configdata fs).1 = .ok c) :
    c.sectionNames.Nodup ∧ c.commonName = commonSectionName ∧
      ∀ x ∈ c.sectionNames, x ≠ [] ∧ OneLine x ∧ x ≠ commonSectionName := by
  rw [newOn_load] at h
  cases hl : (loadFiles fs (some ps) [['='], [':']]).1 with
  | error e => rw [hl] at h; cases h
  | ok c' => rw [hl] at h; cases h; exact loadFiles_names hl

theorem configdata_fail {fs : FS} {e : PyExc} (h : (f.configdata fs).1 = .exc e) (sec : Option Str) (sp : Bool) :
    (f.unrollSelf K n fs sec sp).1 = .exc e := by
  obtain ⟨h1, h2, h3⟩ := configdata_frame fs f 0
  unfold Full.unrollSelf
  dsimp only
  cases hx : ({ f with level := 0 } : Full δ ω).configdata fs with
  | mk x f1 =>
    rw [hx, h] at h1
    dsimp only at h1
    rw [h1]

theorem configdata_cases (fs : FS) (f : Full δ ω) : (∃ c, (f.configdata fs).1 = .ok c) ∨ ∃ e, (f.configdata fs).1 = .exc e := by
  unfold Full.configdata
  cases f.cfg with
  | some c => exact .inl ⟨c, rfl⟩
  | none =>
    dsimp only
    cases (loadFiles fs f.files f.delimiters).1 with
    | ok c => exact .inl ⟨c, rfl⟩
    | error e => exact .inr ⟨e, rfl⟩

theorem unroll_base {ps : List Str} (hf : f.files = some ps) (fs : FS) (sec : Option Str) (sp : Bool) :
    (f.unroll K n fs sec sp true).1 = ((newOn ps).unrollSelf baseClass n fs sec sp).1 := by
  unfold Full.unroll
  rw [if_pos rfl, hf]
  rfl

/-- C26: the text is the sections of the file, in file order, each with the options that the base class resolves,
whatever the class and the history of the object. -/
theorem C26_text {fs : FS} {ps : List Str} (hf : f.files = some ps) (sp : Bool) {text : Str}
    (h : ((FOp.unroll none sp true).exec K n fs f).1 = .ok (.text text)) :
    ∃ c R, ((newOn ps).configdata fs).1 = .ok c ∧ R.map Prod.fst = c.sectionNames ∧
      (∀ b ∈ R, Resolved (baseEnv c 0) b.1 b.2) ∧ text = render sp R := by
  obtain ⟨t, h1, h2⟩ := map'_ok h
  cases h2
  rw [unroll_base hf] at h1
  rcases configdata_cases fs (newOn ps) with ⟨c, hc⟩ | ⟨e, he⟩
  · rw [unrollSelf_loaded fs hc, unrollBody_all] at h1
    obtain ⟨t, h3, rfl⟩ := map'_ok h1
    obtain ⟨R, r1, r2, r3⟩ := genAll_ok sp _ _ (fun s hs => hasSection_of_mem hs)
      (fun s _ => by rw [newOn_eq]; exact settled_fresh _ s ()) (genAll_state h3)
    exact ⟨c, R, hc, r1, r2, by rw [r3]; exact strip_render sp R⟩
  · rw [configdata_fail he] at h1; cases h1

/-- C26: with `section=S`, only that section. -/
theorem C26_section {fs : FS} {ps : List Str} (hf : f.files = some ps) (sp : Bool) {text : Str}
    (h : ((FOp.unroll (some s) sp true).exec K n fs f).1 = .ok (.text text)) :
    ∃ c d, ((newOn ps).configdata fs).1 = .ok c ∧ s ∈ c.sectionNames ∧ Resolved (baseEnv c 0) s d ∧
      text = renderSection sp (s, d) := by
  obtain ⟨t, h1, h2⟩ := map'_ok h
  cases h2
  rw [unroll_base hf] at h1
  rcases configdata_cases fs (newOn ps) with ⟨c, hc⟩ | ⟨e, he⟩
  · rw [unrollSelf_loaded fs hc, unrollBody_one] at h1
    by_cases hs : s ∈ c.sectionNames
    · rw [genSection_apply (hasSection_of_mem hs)] at h1
      cases hg : edGet { baseClass with cfg := c, level := 0 } n s (newOn ps).obj with
      | mk r o' =>
        rw [hg] at h1
        cases r with
        | exc e => cases h1
        | diverge => cases h1
        | ok d =>
          cases h1
          refine ⟨c, d, hc, hs, edGet_settled (by rw [newOn_eq]; exact settled_fresh _ s ()) hg, ?_⟩
          exact (strip_renderSection sp (s, d)).symm ▸ rfl
    · have hf : ({ baseClass with cfg := c, level := 0 } : Env Unit Unit).cfg.hasSection s = false := by
        cases hx : c.hasSection s with
        | false => rfl
        | true => exact absurd ((Dict.mem_iff _ _).1 hx) hs
      rw [genSection_missing hf, newOn_eq] at h1
      cases h1
  · rw [configdata_fail he] at h1; cases h1

/-- C26: a section that is not in the files gives KeyError. -/
theorem C26_missing {fs : FS} {ps : List Str} (hf : f.files = some ps) (sp : Bool) {c : Cfg}
    (hc : ((newOn ps).configdata fs).1 = .ok c) (hs : s ∉ c.sectionNames) :
    ((FOp.unroll (some s) sp true).exec K n fs f).1 = .exc .keyError := by
  have h : (f.unroll K n fs (some s) sp true).1 = .exc .keyError := by
    rw [unroll_base hf, unrollSelf_loaded fs hc, unrollBody_one, genSection_missing (by
        cases hx : c.hasSection s with
        | false => rfl
        | true => exact absurd ((Dict.mem_iff _ _).1 hx) hs), newOn_eq]
    rfl
  show Out.map' _ (f.unroll K n fs (some s) sp true).1 = _
  rw [h]; rfl

/-- C26: if the files do not load, or none were ever assigned, that exception is raised. -/
theorem C26_no_text (fs : FS) (sec : Option Str) (sp : Bool) :
    (f.files = none → ((FOp.unroll sec sp true).exec K n fs f).1 = .exc .valueError) ∧
    ∀ ps e, f.files = some ps → ((newOn ps).configdata fs).1 = .exc e →
      ((FOp.unroll sec sp true).exec K n fs f).1 = .exc e := by
  constructor
  · intro hf
    show Out.map' _ (f.unroll K n fs sec sp true).1 = _
    unfold Full.unroll
    rw [if_pos rfl, hf]; rfl
  · intro ps e hf he
    show Out.map' _ (f.unroll K n fs sec sp true).1 = _
    rw [unroll_base hf, configdata_fail he]; rfl

/-- Every section is either sound or has a first fault. -/
theorem sound_or_faults (E : Env δ ω) (s : Str) : Sound E s ∨ ∃ e, Faults E s e := by
  obtain ⟨evs, ht⟩ := parseTrace_total E s true true
  have : ∀ l : List (Ev δ ω), (∀ x ∈ l, ∀ e, ¬ Fault x e) ∨ ∃ a ev b e, l = a ++ ev :: b ∧ Fault ev e ∧
      ∀ x ∈ a, ∀ e, ¬ Fault x e := by
    intro l
    induction l with
    | nil => exact .inl (by simp)
    | cons x l ih =>
      by_cases hx : ∃ e, Fault x e
      · obtain ⟨e, he⟩ := hx
        exact .inr ⟨[], x, l, e, rfl, he, by simp⟩
      · have hx' : ∀ e, ¬ Fault x e := fun e he => hx ⟨e, he⟩
        rcases ih with h | ⟨a, ev, b, e, rfl, h1, h2⟩
        · exact .inl fun y hy => by
            rcases List.mem_cons.1 hy with rfl | hy
            · exact hx'
            · exact h y hy
        · refine .inr ⟨x :: a, ev, b, e, rfl, h1, ?_⟩
          intro y hy
          rcases List.mem_cons.1 hy with rfl | hy
          · exact hx'
          · exact h2 y hy
  rcases this evs with h | ⟨a, ev, b, e, rfl, h1, h2⟩
  · exact .inl ⟨evs, ht, h⟩
  · exact .inr ⟨e, a, ev, b, ht, h1, h2⟩

/-- DEFAULT does not lead to another section that is parsed by itself. -/
def DefaultApart (c : Cfg) : Prop :=
  c.hasSection py!"DEFAULT" = true → ∀ s ∈ c.sectionNames, s = py!"DEFAULT" ∨ ¬ Reaches (baseEnv c 0) py!"DEFAULT" s

theorem links_level {E : Env δ ω} {l : Nat} {s t : Str} : Links { E with level := l } s t → Links E s t := id

theorem reaches_level {E : Env δ ω} {l : Nat} {s t : Str} (h : Reaches { E with level := l } s t) : Reaches E s t := by
  induction h with
  | refl => exact .refl _
  | step h1 _ ih => exact .step (links_level h1) ih

section
variable {c : Cfg} {l : Nat} {o : Obj Unit Unit}

theorem edGet_base (hl : l ≤ 4) (hs : s ≠ []) (hu : Untouched s o) (hn : c.sectionNames.length + 3 ≤ n)
    (hd : c.hasSection py!"DEFAULT" = true → s = py!"DEFAULT" ∨ ¬ Reaches (baseEnv c 0) py!"DEFAULT" s) :
    (Sound (baseEnv c 0) s → ∃ d, (edGet (baseEnv c l) n s o).1 = .ok d ∧ Resolved (baseEnv c 0) s d) ∧
    (∀ e, Faults (baseEnv c 0) s e → (edGet (baseEnv c l) n s o).1 = .exc e) := by
  have hd' : true = true → (baseEnv c l).cfg.hasSection (baseEnv c l).defaultName = true →
      s = (baseEnv c l).defaultName ∨ ¬ Reaches (baseEnv c l) (baseEnv c l).defaultName s := by
    intro _ h
    rcases hd h with h | h
    · exact .inl h
    · exact .inr fun hr => h (reaches_level (E := baseEnv c 0) (l := l) hr)
  constructor
  · rintro ⟨evs, ht, hno⟩
    have ht' : ParseTrace (baseEnv c l) s true true evs := parseTrace_level (E := baseEnv c l) (l := 0) ht
    have h := (parseSection_replay (o := o) hs ht' hn hd').1
    rw [replay_mild hl (mild_trace ht') _ hno] at h
    have hp := parseOwner_first (E := baseEnv c l) (n := n) hs false (.inl hu.1)
    cases hx : parseSection (baseEnv c l) n s true true o with
    | mk r o' =>
      rw [hx] at h hp
      dsimp only at h
      subst h
      have hp : parseOwner (baseEnv c l) n s false o = (.ok (), o') := hp
      have hset : Settled (baseEnv c l) s o := ⟨fun hc => absurd hc hu.1, fun _ => hu.2⟩
      obtain ⟨d, h1, evs', h2, h3⟩ := parseOwner_settled hset hp
      refine ⟨d, ?_, evs', parseTrace_level (E := baseEnv c 0) (l := l) h2, h3⟩
      rw [edGet_apply, hp]
      dsimp only
      unfold lookup
      rw [h1]
  · rintro e ⟨a, ev, b, ht, hev, hno⟩
    have ht' : ParseTrace (baseEnv c l) s true true (a ++ ev :: b) := parseTrace_level (E := baseEnv c l) (l := 0) ht
    have h := (parseSection_replay (o := o) hs ht' hn hd').1
    rw [replay_fault hl hev (mild_trace ht') hno] at h
    have hp := parseOwner_first (E := baseEnv c l) (n := n) hs false (.inl hu.1)
    cases hx : parseSection (baseEnv c l) n s true true o with
    | mk r o' =>
      rw [hx] at h hp
      dsimp only at h
      subst h
      have hp : parseOwner (baseEnv c l) n s false o = (.exc e, o') := hp
      rw [edGet_apply, hp]

theorem untouched_get (E : Env Unit Unit) {t : Str} (h : t ≠ s) (ho : Untouched s o) : Untouched s (edGet E n t o).2 := by
  have := untouched_exec E n (.get t) (by simp [EdOp.mayParse, h]) (by simp [EdOp.edits]) o ho
  have e : ((EdOp.get t).exec E n o).2 = (edGet E n t o).2 := by
    show (M.bind _ _ o).2 = _
    unfold M.bind
    cases edGet E n t o with
    | mk x o' => cases x <;> rfl
  rwa [e] at this

theorem genAll_sound (sp : Bool) (hn : c.sectionNames.length + 3 ≤ n) (hd : DefaultApart c) : ∀ (L : List Str) (o : Obj Unit Unit),
    L.Nodup → (∀ s ∈ L, s ∈ c.sectionNames ∧ s ≠ [] ∧ Sound (baseEnv c 0) s ∧ Untouched s o) →
    ∃ t, (genAll (baseEnv c 0) n (delimOf sp) L o).1 = .ok t
  | [], o, _, _ => ⟨[], rfl⟩
  | s :: L, o, hnd, h => by
    obtain ⟨h1, h2, h3, h4⟩ := h s (List.mem_cons_self ..)
    obtain ⟨d, hg, _⟩ := (edGet_base (l := 0) (by omega) h2 h4 hn fun hx => hd hx s h1).1 h3
    have hnd' := List.nodup_cons.1 hnd
    obtain ⟨t, ht⟩ := genAll_sound sp hn hd L (edGet (baseEnv c 0) n s o).2 hnd'.2 (by
      intro s' hs'
      obtain ⟨g1, g2, g3, g4⟩ := h s' (List.mem_cons_of_mem _ hs')
      exact ⟨g1, g2, g3, untouched_get _ (fun e : s = s' => hnd'.1 (e ▸ hs')) g4⟩)
    refine ⟨renderSection sp (s, d) ++ py!"\n" ++ t, ?_⟩
    show (M.bind _ _ o).1 = _
    unfold M.bind
    rw [genSection_apply (hasSection_of_mem h1)]
    cases hx : edGet (baseEnv c 0) n s o with
    | mk r o' =>
      rw [hx] at hg ht
      dsimp only at hg ht
      subst hg
      dsimp only [mapOut]
      show (M.bind _ _ o').1 = _
      unfold M.bind
      cases hy : genAll (baseEnv c 0) n (delimOf sp) L o' with
      | mk y o2 =>
        rw [hy] at ht
        dsimp only at ht
        subst ht
        rfl

theorem genAll_faults (sp : Bool) (hn : c.sectionNames.length + 3 ≤ n) (hd : DefaultApart c) {e : PyExc} {post : List Str} :
    ∀ (pre : List Str) (o : Obj Unit Unit), (pre ++ s :: post).Nodup →
    (∀ t ∈ pre, t ∈ c.sectionNames ∧ t ≠ [] ∧ Sound (baseEnv c 0) t ∧ Untouched t o) →
    s ∈ c.sectionNames → s ≠ [] → Faults (baseEnv c 0) s e → Untouched s o →
    (genAll (baseEnv c 0) n (delimOf sp) (pre ++ s :: post) o).1 = .exc e
  | [], o, _, _, h1, h2, h3, h4 => by
    have hg := (edGet_base (l := 0) (by omega) h2 h4 hn fun hx => hd hx s h1).2 e h3
    show (M.bind _ _ o).1 = _
    unfold M.bind
    rw [genSection_apply (hasSection_of_mem h1)]
    cases hx : edGet (baseEnv c 0) n s o with
    | mk r o' =>
      rw [hx] at hg
      dsimp only at hg
      subst hg
      rfl
  | t :: pre, o, hnd, h, h1, h2, h3, h4 => by
    obtain ⟨g1, g2, g3, g4⟩ := h t (List.mem_cons_self ..)
    obtain ⟨d, hg, _⟩ := (edGet_base (l := 0) (by omega) g2 g4 hn fun hx => hd hx t g1).1 g3
    have hnd' := List.nodup_cons.1 hnd
    have ih := genAll_faults sp hn hd pre (edGet (baseEnv c 0) n t o).2 hnd'.2 (by
      intro s' hs'
      obtain ⟨g1, g2, g3, g4⟩ := h s' (List.mem_cons_of_mem _ hs')
      exact ⟨g1, g2, g3, untouched_get _ (fun e : t = s' => hnd'.1 (e ▸ List.mem_append_left _ hs')) g4⟩) h1 h2 h3
      (untouched_get _ (fun e : t = s => hnd'.1 (by subst e; exact List.mem_append_right _ (List.mem_cons_self ..))) h4)
    show (M.bind _ _ o).1 = _
    unfold M.bind
    rw [genSection_apply (hasSection_of_mem g1)]
    cases hx : edGet (baseEnv c 0) n t o with
    | mk r o' =>
      rw [hx] at hg ih
      dsimp only at hg ih
      subst hg
      dsimp only [mapOut]
      show (M.bind _ _ o').1 = _
      unfold M.bind
      cases hy : genAll (baseEnv c 0) n (delimOf sp) (pre ++ s :: post) o' with
      | mk y o2 =>
        rw [hy] at ih
        dsimp only at ih
        subst ih
        rfl

end

theorem untouched_fresh (E : Env δ ω) (s : Str) (w : ω) : Untouched s (Obj.fresh E w) := ⟨by simp [Obj.fresh], .inl rfl⟩

/-- C26, when: there is a text exactly if every section is free of faults (a `use` of a missing section, an
interpolation that fails, a key that is not made of words), and otherwise the first fault of the first bad section is
raised. Cycles are no fault, since the work is done at level 0. -/
theorem C26_when {fs : FS} {ps : List Str} (hf : f.files = some ps) (sp : Bool) {c : Cfg}
    (hc : ((newOn ps).configdata fs).1 = .ok c) (hn : c.sectionNames.length + 3 ≤ n) (hd : DefaultApart c) :
    ((∃ text, ((FOp.unroll none sp true).exec K n fs f).1 = .ok (.text text)) ↔
      ∀ s ∈ c.sectionNames, Sound (baseEnv c 0) s) ∧
    ∀ e, (((FOp.unroll none sp true).exec K n fs f).1 = .exc e ↔
      ∃ pre s post, c.sectionNames = pre ++ s :: post ∧ (∀ t ∈ pre, Sound (baseEnv c 0) t) ∧ Faults (baseEnv c 0) s e) := by
  obtain ⟨hnd, _, hok⟩ := newOn_names hc
  have hrun : ((FOp.unroll none sp true).exec K n fs f).1 =
      ((genAll (baseEnv c 0) n (delimOf sp) c.sectionNames (Obj.fresh baseClass ())).1.map'
        (fun t => strip t ++ py!"\n")).map' .text := by
    show Out.map' _ (f.unroll K n fs none sp true).1 = _
    rw [unroll_base hf, unrollSelf_loaded fs hc, unrollBody_all, newOn_eq]
    rfl
  have all : (∀ s ∈ c.sectionNames, Sound (baseEnv c 0) s) →
      ∃ text, ((FOp.unroll none sp true).exec K n fs f).1 = .ok (.text text) := by
    intro hs
    obtain ⟨t, ht⟩ := genAll_sound sp hn hd c.sectionNames (Obj.fresh baseClass ()) hnd fun s hm =>
      ⟨hm, (hok s hm).1, hs s hm, untouched_fresh _ _ _⟩
    rw [hrun, ht]
    exact ⟨_, rfl⟩
  have bad : ∀ e pre s post, c.sectionNames = pre ++ s :: post → (∀ t ∈ pre, Sound (baseEnv c 0) t) →
      Faults (baseEnv c 0) s e → ((FOp.unroll none sp true).exec K n fs f).1 = .exc e := by
    intro e pre s post hsplit hpre hs
    have hm : s ∈ c.sectionNames := by rw [hsplit]; simp
    have := genAll_faults sp hn hd (post := post) pre (Obj.fresh baseClass ()) (hsplit ▸ hnd) (fun t ht => by
      have hm : t ∈ c.sectionNames := by rw [hsplit]; exact List.mem_append_left _ ht
      exact ⟨hm, (hok t hm).1, hpre t ht, untouched_fresh _ _ _⟩) hm (hok s hm).1 hs (untouched_fresh _ _ _)
    rw [hrun, hsplit, this]
    rfl
  have either : (∀ s ∈ c.sectionNames, Sound (baseEnv c 0) s) ∨ ∃ e pre s post, c.sectionNames = pre ++ s :: post ∧
      (∀ t ∈ pre, Sound (baseEnv c 0) t) ∧ Faults (baseEnv c 0) s e := by
    have : ∀ L : List Str, (∀ s ∈ L, Sound (baseEnv c 0) s) ∨ ∃ e pre s post, L = pre ++ s :: post ∧
        (∀ t ∈ pre, Sound (baseEnv c 0) t) ∧ Faults (baseEnv c 0) s e := by
      intro L
      induction L with
      | nil => exact .inl (by simp)
      | cons x L ih =>
        rcases sound_or_faults (baseEnv c 0) x with hx | ⟨e, hx⟩
        · rcases ih with h | ⟨e, pre, s, post, rfl, h1, h2⟩
          · refine .inl fun y hy => ?_
            rcases List.mem_cons.1 hy with rfl | hy
            · exact hx
            · exact h y hy
          · refine .inr ⟨e, x :: pre, s, post, rfl, ?_, h2⟩
            intro y hy
            rcases List.mem_cons.1 hy with rfl | hy
            · exact hx
            · exact h1 y hy
        · exact .inr ⟨e, [], x, L, rfl, by simp, hx⟩
    exact this _
  refine ⟨⟨?_, all⟩, fun e => ⟨?_, ?_⟩⟩
  · rintro ⟨text, ht⟩
    rcases either with h | ⟨e, pre, s, post, h1, h2, h3⟩
    · exact h
    · rw [bad e pre s post h1 h2 h3] at ht; cases ht
  · intro he
    rcases either with h | ⟨e', pre, s, post, h1, h2, h3⟩
    · obtain ⟨t, ht⟩ := all h
      rw [ht] at he; cases he
    · rw [bad e' pre s post h1 h2 h3] at he
      cases he
      exact ⟨pre, s, post, h1, h2, h3⟩
  · rintro ⟨pre, s, post, h1, h2, h3⟩
    exact bad e pre s post h1 h2 h3

/-! ### C27 the text reads back -/

theorem defaultApart_plain {c : Cfg} {R : List (Str × Options)} (h : Resolvable c R) : DefaultApart (plainCfg R) := by
  intro _ s _
  by_cases hs : s = py!"DEFAULT"
  · exact .inl hs
  · exact .inr fun hr => hs (h.reaches hr)

theorem resolvable_of_text {fs : FS} {ps : List Str} (hf : f.files = some ps) (sp : Bool) {text : Str}
    (h : ((FOp.unroll none sp true).exec K n fs f).1 = .ok (.text text))
    (hplain : ∀ c, ((newOn ps).configdata fs).1 = .ok c → ∀ s ∈ c.sectionNames, ∀ d, Resolved (baseEnv c 0) s d →
      PlainOptions d) :
    ∃ c R, ((newOn ps).configdata fs).1 = .ok c ∧ Resolvable c R ∧ text = render sp R := by
  obtain ⟨c, R, h1, h2, h3, h4⟩ := C26_text hf sp h
  obtain ⟨g1, _, g3⟩ := newOn_names h1
  exact ⟨c, R, h1, ⟨h2, g1, g3, h3, fun b hb => hplain c h1 b.1 (h2 ▸ List.mem_map_of_mem hb) b.2 (h3 b hb)⟩, h4⟩

theorem load_text {c : Cfg} {R : List (Str × Options)} (h : Resolvable c R) {fs : FS} {p : Str} {sp : Bool}
    (hp : fs p = .file (render sp R)) : ((newOn [p]).configdata fs).1 = .ok (plainCfg R) := by
  obtain ⟨h1, h2, h3⟩ := h.says sp
  have := C42_text_is_read (K := baseClass) (n := 0) (f := newOn [p]) (fs := fs) (ds := stdDelims)
    ⟨by rw [newOn_eq]; rfl, by decide, fun d hd => by
      rcases List.mem_cons.1 hd with rfl | hd
      · intro hw; revert hw; rw [← isSpace_iff]; decide
      · cases List.mem_singleton.1 hd; exact white_colon⟩ (by rw [newOn_eq]) (by rw [newOn_eq]) hp h1 h2
  obtain ⟨c', hc', e⟩ := map'_ok this
  cases e
  rw [hc']
  exact congrArg Out.ok h3

/-- C27: if the text of `unroll_to_str` is written to a file, a new object reads from it the same sections, and for
each of them exactly the resolved data of the original, None having become the empty string. -/
theorem C27_round_trip {fs : FS} {ps : List Str} (hf : f.files = some ps) (sp : Bool) {text : Str}
    (h : ((FOp.unroll none sp true).exec K n fs f).1 = .ok (.text text))
    (hplain : ∀ c, ((newOn ps).configdata fs).1 = .ok c → ∀ s ∈ c.sectionNames, ∀ d, Resolved (baseEnv c 0) s d →
      PlainOptions d)
    {fs' : FS} {p : Str} (hp : fs' p = .file text) :
    ∃ c c', ((newOn ps).configdata fs).1 = .ok c ∧ ((newOn [p]).configdata fs').1 = .ok c' ∧
      c'.sectionNames = c.sectionNames ∧
      ∀ s ∈ c.sectionNames, ∃ d, Resolved (baseEnv c 0) s d ∧ Resolved (baseEnv c' 0) s (fillIn d) ∧
        (c.sectionNames.length + 3 ≤ m →
          ((FOp.ed (.get s)).exec baseClass m fs' (newOn [p])).1 = .ok (.ed (.opts (fillIn d)))) := by
  obtain ⟨c, R, h1, hR, rfl⟩ := resolvable_of_text hf sp h hplain
  have hload := load_text hR hp
  have hnames := (plainCfg_names R).trans hR.names
  refine ⟨c, plainCfg R, h1, hload, hnames, ?_⟩
  intro s hs
  obtain ⟨b, hb, rfl⟩ := List.mem_map.1 (hR.names ▸ hs)
  obtain ⟨evs, ht, hno, hlast⟩ := hR.trace hb 0
  refine ⟨b.2, hR.resolved b hb, ⟨evs, ht, hlast⟩, fun hm => ?_⟩
  obtain ⟨m, rfl⟩ : ∃ m', m = m' + 1 := ⟨m - 1, by omega⟩
  have hrun := (runOp_loaded baseClass m fs' (.get b.1) (newOn [p]) hload (by rw [newOn_eq]; simp)).1
  show Out.map' _ ((newOn [p]).runOp baseClass (m + 1) fs' (.get b.1)).1 = _
  have hobj : (newOn [p]).obj = Obj.fresh baseClass () ∧ (newOn [p]).env baseClass (plainCfg R) = baseEnv (plainCfg R) 4 := by
    rw [newOn_eq]; exact ⟨rfl, rfl⟩
  rw [hrun, hobj.1, hobj.2]
  obtain ⟨d, hd, hres⟩ := (edGet_base (c := plainCfg R) (l := 4) (n := m + 1) (s := b.1) (o := Obj.fresh baseClass ())
    (by omega) (hR.ok _ hs).1 (untouched_fresh _ _ _) (hnames ▸ hm)
    fun hx => defaultApart_plain hR hx b.1 (hnames ▸ hs)).1 ⟨evs, ht, hno⟩
  have : d = fillIn b.2 := by
    obtain ⟨d0, _, h0⟩ := C01_resolved_exists_unique (baseEnv (plainCfg R) 0) b.1
    rw [h0 d hres, h0 (fillIn b.2) ⟨evs, ht, hlast⟩]
  rw [this] at hd
  show Out.map' _ (M.bind _ _ _).1 = _
  unfold M.bind
  cases hx : edGet (baseEnv (plainCfg R) 4) (m + 1) b.1 (Obj.fresh baseClass ()) with
  | mk r o =>
    rw [hx] at hd
    dsimp only at hd
    subst hd
    rfl

theorem renderSection_fillIn (sp : Bool) (b : Str × Options) : renderSection sp (b.1, fillIn b.2) = renderSection sp b := by
  unfold renderSection fillIn
  rw [List.map_map]
  rfl

theorem render_fillIn (sp : Bool) : ∀ bs : List (Str × Options), render sp (bs.map fun b => (b.1, fillIn b.2)) = render sp bs
  | [] => rfl
  | [b] => renderSection_fillIn sp b
  | b :: b' :: bs => by
    have ih := render_fillIn sp (b' :: bs)
    rw [List.map_cons, render.eq_3 _ _ _ (by simp), render.eq_3 _ _ _ (by simp), ih, renderSection_fillIn]

/-- C27: unrolling the unrolled text gives the same text. -/
theorem C27_idempotent {fs : FS} {ps : List Str} (hf : f.files = some ps) (sp : Bool) {text : Str}
    (h : ((FOp.unroll none sp true).exec K n fs f).1 = .ok (.text text))
    (hplain : ∀ c, ((newOn ps).configdata fs).1 = .ok c → ∀ s ∈ c.sectionNames, ∀ d, Resolved (baseEnv c 0) s d →
      PlainOptions d)
    {fs' : FS} {p : Str} (hp : fs' p = .file text) {c' : Cfg} (hc' : ((newOn [p]).configdata fs').1 = .ok c')
    (hm : c'.sectionNames.length + 3 ≤ m) {g : Full δ ω} (hg : g.files = some [p]) :
    ((FOp.unroll none sp true).exec K m fs' g).1 = .ok (.text text) := by
  obtain ⟨c, R, h1, hR, rfl⟩ := resolvable_of_text hf sp h hplain
  have hload := load_text hR hp
  cases Out.ok.inj (hc'.symm.trans hload)
  obtain ⟨text', ht'⟩ := (C26_when (K := K) hg sp hload hm (defaultApart_plain hR)).1.2 (by
    intro s hs
    obtain ⟨b, hb, rfl⟩ := List.mem_map.1 (plainCfg_names R ▸ hs)
    obtain ⟨evs, ht, hno, _⟩ := hR.trace hb 0
    exact ⟨evs, ht, hno⟩)
  obtain ⟨c2, R', g1, g2, g3, g4⟩ := C26_text hg sp ht'
  cases Out.ok.inj (g1.symm.trans hload)
  rw [ht', g4, ← render_fillIn sp R]
  have : R' = R.map fun b => (b.1, fillIn b.2) := by
    have gg2 : R'.map Prod.fst = R.map Prod.fst := g2.trans (plainCfg_names R)
    have key : ∀ (A B : List (Str × Options)), A.map Prod.fst = B.map Prod.fst → (∀ b ∈ B, b ∈ R) → (∀ b ∈ A, b ∈ R') →
        A = B.map fun b => (b.1, fillIn b.2) := by
      intro A
      induction A with
      | nil => intro B hB _ _; cases B with
        | nil => rfl
        | cons b B => cases hB
      | cons a A ih =>
        intro B hB hBR hAR
        cases B with
        | nil => cases hB
        | cons b B =>
          rw [List.map_cons, List.map_cons, List.cons.injEq] at hB
          rw [List.map_cons, ← ih B hB.2 (fun x hx => hBR x (List.mem_cons_of_mem _ hx)) (fun x hx => hAR x (List.mem_cons_of_mem _ hx))]
          congr 1
          obtain ⟨evs, ht, _, hlast⟩ := hR.trace (hBR b (List.mem_cons_self ..)) 0
          obtain ⟨d0, _, h0⟩ := C01_resolved_exists_unique (baseEnv (plainCfg R) 0) b.1
          have ha := g3 a (hAR a (List.mem_cons_self ..))
          rw [hB.1] at ha
          have : a.2 = fillIn b.2 := by rw [h0 a.2 ha, h0 (fillIn b.2) ⟨evs, ht, hlast⟩]
          rw [← this, ← hB.1]
    exact key R' R gg2 (fun _ h => h) (fun _ h => h)
  rw [this]

/-! ### A case -/

namespace UnrollExample
open IniExample

/-- Two sections and DEFAULT; A and B use each other; C is commented out. -/
def iniText : Str := py!"[DEFAULT]\nlast: d\n[A]\nkey 1: one\nuse B\nlast: 0\n\n[B]\n  flag\n  use A:\n  key 1 = \"two\"\n#[C]\n"

/-- The text that it unrolls to. -/
def outText : Str := py!"[DEFAULT]\nlast : d\n\n[A]\nlast : 0\nkey 1 : two\nflag :\n\n[B]\nlast : 0\nflag :\nkey 1 : two\n"

/-- A file with `iniText`, one with `outText`, and two with faults. -/
def disk : FS := fun p =>
  if p = py!"in.ini" then .file iniText
  else if p = py!"out.ini" then .file outText
  else if p = py!"bad.ini" then .file py!"[A]\nx: 1\n[B]\nuse Nowhere\n[C]\ny: %(gone)s\n"
  else .absent

/-- An object of the example class, with handlers, on a file. -/
def on (p : Str) : Full (List Str) Unit := ((Full.new Example.env ()).setFiles (.one p)).2

/-- What in.ini contains. -/
def cfg : Cfg where
  sections := [(py!"DEFAULT", [(py!"last", some py!"d")]),
    (py!"A", [(py!"key 1", some py!"one"), (py!"use B", none), (py!"last", some py!"0")]),
    (py!"B", [(py!"flag", none), (py!"use A", some []), (py!"key 1", some py!"\"two\"")])]
  commonName := py!"CONFIGPARSERENHANCED_COMMON"

/-- What out.ini contains. -/
def outCfg : Cfg where
  sections := [(py!"DEFAULT", [(py!"last", some py!"d")]),
    (py!"A", [(py!"last", some py!"0"), (py!"key 1", some py!"two"), (py!"flag", some [])]),
    (py!"B", [(py!"last", some py!"0"), (py!"flag", some []), (py!"key 1", some py!"two")])]
  commonName := py!"CONFIGPARSERENHANCED_COMMON"

theorem loads : ((newOn [py!"in.ini"]).configdata disk).1 = .ok cfg := by decide +kernel

theorem gives (sp : Bool) (h : sp = true) :
    ((FOp.unroll none sp true).exec Example.env 9 disk (on py!"in.ini")).1 = .ok (.text outText) := by
  subst h; decide +kernel

instance (v : Str) : Decidable (PlainValue v) := by unfold PlainValue; infer_instance
instance (d : Options) : Decidable (PlainOptions d) :=
  decidable_of_iff (∀ kv ∈ d, OneLine kv.1 ∧ (∀ c ∈ kv.1, c ≠ '=' ∧ c ≠ ':') ∧
    ((kv.1.head?.all fun c => decide (c ≠ '#' ∧ c ≠ ';' ∧ c ≠ '[')) = true) ∧ PlainValue (kv.2.getD [])) (by
    unfold PlainOptions
    refine forall_congr' fun kv => forall_congr' fun _ => and_congr_right fun _ => and_congr_right fun _ => and_congr_left fun _ => ?_
    exact all_head)

/-- The resolved data of the example is what a fresh object answers, so it can be computed. -/
theorem plain : ∀ c, ((newOn [py!"in.ini"]).configdata disk).1 = .ok c → ∀ s ∈ c.sectionNames, ∀ d,
    Resolved (baseEnv c 0) s d → PlainOptions d := by
  intro c hc
  cases Out.ok.inj (hc.symm.trans loads)
  intro s hs d hd
  have key : ∀ s ∈ cfg.sectionNames, ∃ d, (edGet (baseEnv cfg 0) 9 s (Obj.fresh baseClass ())).1 = .ok d ∧ PlainOptions d := by
    have : ∀ s ∈ cfg.sectionNames, (match (edGet (baseEnv cfg 0) 9 s (Obj.fresh baseClass ())).1 with
        | .ok d => decide (PlainOptions d) | _ => false) = true := by decide +kernel
    intro s hs
    have := this s hs
    split at this
    · rename_i d hd; exact ⟨d, hd, of_decide_eq_true this⟩
    · cases this
  obtain ⟨d', h1, h2⟩ := key s hs
  have hr : Resolved (baseEnv cfg 0) s d' := by
    cases hx : edGet (baseEnv cfg 0) 9 s (Obj.fresh baseClass ()) with
    | mk r o =>
      rw [hx] at h1
      dsimp only at h1
      subst h1
      exact edGet_settled (settled_fresh (baseEnv cfg 0) s ()) hx
  obtain ⟨d0, _, h0⟩ := C01_resolved_exists_unique (baseEnv cfg 0) s
  rw [h0 d hd, ← h0 d' hr]
  exact h2

end UnrollExample

open UnrollExample in
example := C26_text (K := Example.env) (f := on py!"in.ini") rfl true (gives true rfl)
open UnrollExample in
example := C27_round_trip (m := 9) (K := Example.env) (f := on py!"in.ini") rfl true (gives true rfl) plain (fs' := disk) (p := py!"out.ini") rfl
open UnrollExample in
example := C27_idempotent (m := 9) (K := Example.env) (f := on py!"in.ini") rfl true (gives true rfl) plain (fs' := disk) (p := py!"out.ini") rfl
  (g := on py!"out.ini") (c' := outCfg) (by decide +kernel) (by decide) rfl

open UnrollExample in
example : ((FOp.ed (.get py!"B")).exec baseClass 9 disk (newOn [py!"out.ini"])).1 =
    .ok (.ed (.opts [(py!"last", some py!"0"), (py!"flag", some []), (py!"key 1", some py!"two")])) := by decide +kernel

-- one section, without blanks, and a missing one
open UnrollExample in
example : ((FOp.unroll (some py!"B") false true).exec Example.env 9 disk (on py!"in.ini")).1 =
    .ok (.text py!"[B]\nlast:0\nflag:\nkey 1:two\n") ∧
  ((FOp.unroll (some py!"C") false true).exec Example.env 9 disk (on py!"in.ini")).1 = .exc .keyError := by decide +kernel

-- the first fault of the first bad section
open UnrollExample in
example : ((FOp.unroll none true true).exec Example.env 9 disk (on py!"bad.ini")).1 = .exc .keyError ∧
  ((FOp.unroll (some py!"A") true true).exec Example.env 9 disk (on py!"bad.ini")).1 = .ok (.text py!"[A]\nx : 1\n") ∧
  ((FOp.unroll (some py!"C") true true).exec Example.env 9 disk (on py!"bad.ini")).1 = .exc .interpolationMissing := by decide +kernel

-- the object's own class, after an access
open UnrollExample LifeExample in
example : ((FOp.unroll none true false).exec cls 9 LifeExample.disk fA1).1 =
    .ok (.text py!"[A]\nkey : 1\n\n[B]\nkey : 1\nmine :\n") ∧
  ((FOp.unroll (some py!"Z") true false).exec cls 9 LifeExample.disk fA1).1 = .exc .keyError := by decide +kernel

/-- The hypotheses of `C26_own_text`: after an access to A. -/
example : ∃ R : List (Str × Options), R.map Prod.fst = [py!"A", py!"B"] ∧
    py!"[A]\nkey : 1\n\n[B]\nkey : 1\nmine :\n" = render true R := by
  let c : Cfg :=
    { sections := [(py!"A", [(py!"key", some py!"1")]), (py!"B", [(py!"use A", some []), (py!"mine", none)])],
      common := [], commonName := py!"CONFIGPARSERENHANCED_COMMON" }
  have hload : (LifeExample.fA.configdata LifeExample.disk).1 = .ok c := by decide +kernel
  have hload1 : (LifeExample.fA1.configdata LifeExample.disk).1 = .ok c := by decide +kernel
  obtain ⟨R, h1, _, h3⟩ := C26_own_text (K := LifeExample.cls) (n := 9) (m := 9) (f := LifeExample.fA1) hload1 [.get py!"A"] ()
    (runOp_loaded LifeExample.cls 8 LifeExample.disk (.get py!"A") LifeExample.fA hload (by decide)).2
    (fun s hs => by
      have : s = py!"A" ∨ s = py!"B" := by simpa [c, Cfg.sectionNames, Dict.keys] using hs
      rcases this with rfl | rfl
      · exact ⟨rfl, fun _ => ⟨.opts [(py!"key", some py!"1")], by decide +kernel⟩, trivial⟩
      · exact ⟨rfl, (fun h => nomatch h), trivial⟩)
    true (text := py!"[A]\nkey : 1\n\n[B]\nkey : 1\nmine :\n") (by decide +kernel)
  exact ⟨R, h1, h3⟩

/-- The hypotheses of `C26_when`: no DEFAULT in the file. -/
example : ∃ s e, Faults (baseEnv { sections := [(py!"A", [(py!"x", some py!"1")]), (py!"B", [(py!"use Nowhere", none)]),
      (py!"C", [(py!"y", some py!"%(gone)s")])] } 0) s e := by
  obtain ⟨_, s, _, _, _, h⟩ := ((C26_when (K := Example.env) (n := 9) (f := UnrollExample.on py!"bad.ini") (fs := UnrollExample.disk) rfl true
    (c := { sections := [(py!"A", [(py!"x", some py!"1")]), (py!"B", [(py!"use Nowhere", none)]),
      (py!"C", [(py!"y", some py!"%(gone)s")])] }) (by decide +kernel) (by decide +kernel)
    (fun h => absurd h (by decide +kernel))).2 .keyError).1 (by decide +kernel)
  exact ⟨s, _, h⟩

end CPE.Props
