import Verif.Proofs.KeywordParsers
/-
C50-C52: KeywordParser and EnvKeywordParser.
-/
namespace CPE.Props
open CPE CPE.Spec CPE.SetEnv CPE.KW CPE.KW.Spec

section
variable {E : Env Unit Unit} {n : Nat} {s : Str} {o o1 : CObj} {d : Options}

/-! ### C50 -/

/-- C50: on a section with data `d`, `get_values_for_section_key` returns the words in the text of the key. It reads
the text line by line, drops what follows a '#' and cuts at '^'; only blank pieces can show up as empty strings.
If the values break one of the rules it exits. Nothing but the read of the section changes the object. -/
theorem C50_values (h : edGetItem E n s o = (.ok d, o1)) {k : Str} {v : Option Str} (hk : Dict.get? d k = some v) :
    ∃ vals, SameWords vals (words (textOf v)) ∧
      ((∀ line ∈ splitChar '\n' (textOf v), ∀ g ∈ lineWords line, g = [] ∨ strip g ≠ []) → vals = words (textOf v)) ∧
      (Acceptable d vals → getValues E n s k o = (.ok vals, o1)) ∧
      (¬ Acceptable d vals → getValues E n s k o = (.exc .systemExit, o1)) := by
  have hm : k ∈ Dict.keys d := (Dict.get?_isSome_iff d k).1 (by rw [hk]; rfl)
  have hv : valuesIn d k = valuesOf (textOf v) := by rw [valuesIn, hk]; rfl
  refine ⟨valuesIn d k, ?_, ?_, ?_, ?_⟩
  · rw [hv]; exact valuesOf_words _
  · rw [hv]; exact fun hb => valuesOf_noBlank hb
  · exact fun ha => by rw [getValues_read h, valuesResult_ok hm ha]
  · exact fun ha => by rw [getValues_read h, valuesResult_bad hm ha]

/-- C50: a key that the section does not have: KeyError; a section that cannot be read: the same failure. -/
theorem C50_failures (k : Str) :
    (∀ d, edGetItem E n s o = (.ok d, o1) → k ∉ Dict.keys d → getValues E n s k o = (.exc .keyError, o1)) ∧
    (∀ e, edGetItem E n s o = (.exc e, o1) → getValues E n s k o = (.exc e, o1)) := by
  refine ⟨fun d h hk => ?_, fun e h => ?_⟩
  · rw [getValues_read h, valuesResult_missing hk]
  · exact getValues_fail (by simp) h k

/-- A section of the file is what C01 and C07 say it is. -/
theorem read_resolved (hs : E.cfg.hasSection s = true) (h : edGetItem E n s (Obj.fresh E ()) = (.ok d, o1)) :
    Resolved E s d := by
  have hx : (EdOp.exec E n (.getItem s) (Obj.fresh E ())).1 = .ok (.opts d) := by
    show ((edGetItem E n s >>= fun d => pure (EdVal.opts d)) (Obj.fresh E ())).1 = _
    rw [M.bind_ok h]; rfl
  obtain ⟨d', h1, h2⟩ := settled_answer (settled_fresh E s ()) hs (.getItem s) rfl hx
  simp only [rightAnswer, Option.some.injEq, EdVal.opts.injEq] at h2
  rw [← h2]; exact h1

/-- C50 for a new KeywordParser: what it returns for a section of the file comes from the resolved section. -/
theorem C50_from_file (hs : E.cfg.hasSection s = true) {k : Str} {vals : List Str} {o1 : CObj}
    (h : getValues E n s k (Obj.fresh E ()) = (.ok vals, o1)) :
    ∃ d v, Resolved E s d ∧ Dict.get? d k = some v ∧ SameWords vals (words (textOf v)) ∧ Acceptable d vals := by
  cases hr : edGetItem E n s (Obj.fresh E ()) with
  | mk r o2 =>
    cases r with
    | exc e => rw [(C50_failures k).2 e hr] at h; cases h
    | diverge => rw [getValues_fail (by simp) hr] at h; cases h
    | ok d =>
      cases hk : Dict.get? d k with
      | none =>
        rw [getValues_read hr, valuesResult_missing ((Dict.get?_eq_none_iff d k).1 hk)] at h; cases h
      | some v =>
        obtain ⟨vals', h1, _, h3, h4⟩ := C50_values hr hk
        by_cases ha : Acceptable d vals'
        · rw [h3 ha] at h; cases h
          exact ⟨d, v, read_resolved hs hr, hk, h1, ha⟩
        · rw [h4 ha] at h; cases h

/-- The text of the comment in KP:61-63 and two words on one line. -/
example : words py!"# Comment\nintel-18  # Comment\n intel-18.0.5\nintel-default # id\n\n#x\n  # y\na^b" =
    [py!"intel-18", py!"intel-18.0.5", py!"intel-default", py!"a", py!"b"] := by decide +kernel
example : valuesOf py!"# Comment\nintel-18  # Comment\n intel-18.0.5\nintel-default # id\n\n#x\n  # y\na^b" =
    [py!"intel-18", py!"intel-18.0.5", py!"intel-default", py!"a", py!"b"] := by decide +kernel
/-- Only a blank line that no comment follows shows up as an empty value. -/
example : valuesOf py!"a\n  \nb" = [py!"a", [], py!"b"] ∧ valuesOf py!"a\n  \n#c\nb" = [py!"a", py!"b"] := by decide +kernel

/-! ### C51 -/

/-- C51: `get_key_for_section_value` returns the last key of the section that lists the value; it exits when no key
lists it, or when the values of any key break the rules. -/
theorem C51_key_of_value (h : edGetItem E n s o = (.ok d, o1)) (v : Str) :
    (AllAcceptable d → (∃ k, LastKeyWith d v k) → ∃ k, LastKeyWith d v k ∧ getKey E n s v o = (.ok k, o1)) ∧
    (AllAcceptable d → (∀ k ∈ Dict.keys d, v ∉ valuesIn d k) → getKey E n s v o = (.exc .systemExit, o1)) ∧
    (¬ AllAcceptable d → getKey E n s v o = (.exc .systemExit, o1)) := by
  refine ⟨fun ha hk => ?_, fun ha hk => ?_, fun ha => getKey_bad h ha v⟩
  · rcases getKey_ok h ha v with hx | ⟨hx, _⟩
    · exact hx
    · obtain ⟨k, pre, post, e, h1, _⟩ := hk
      exact absurd h1 (hx k (by rw [e]; simp))
  · rcases getKey_ok h ha v with ⟨k, ⟨pre, post, e, h1, _⟩, _⟩ | ⟨_, hx⟩
    · exact absurd h1 (hk k (by rw [e]; simp))
    · exact hx

/-- C51: there is at most one such key. -/
theorem C51_key_unique {v k k' : Str} (h : LastKeyWith d v k) (h' : LastKeyWith d v k') : k = k' := lastKeyWith_unique h h'

theorem nodup_flatMap_unique {f : Str → List Str} {l : List Str} (hn : (l.flatMap f).Nodup) {k k' v : Str}
    (hk : k ∈ l) (hk' : k' ∈ l) (h : v ∈ f k) (h' : v ∈ f k') : k = k' := by
  induction l with
  | nil => cases hk
  | cons a l ih =>
    rw [List.flatMap_cons, List.nodup_append] at hn
    obtain ⟨_, h2, h3⟩ := hn
    rcases List.mem_cons.1 hk with hka | hka
    · rcases List.mem_cons.1 hk' with hkb | hkb
      · rw [hka, hkb]
      · exact absurd rfl (h3 v (hka ▸ h) v (List.mem_flatMap.2 ⟨k', hkb, h'⟩))
    · rcases List.mem_cons.1 hk' with hkb | hkb
      · exact absurd rfl (h3 v (hkb ▸ h') v (List.mem_flatMap.2 ⟨k, hka, h⟩))
      · exact ih h2 hka hkb

/-- C51: when no value is listed under two keys, looking up the key of a listed value undoes looking up the values. -/
theorem C51_inverse (h : edGetItem E n s o = (.ok d, o1)) (ha : AllAcceptable d) (hn : (allValues d).Nodup) {k v : Str}
    (hk : k ∈ Dict.keys d) (hv : v ∈ valuesIn d k) : getKey E n s v o = (.ok k, o1) := by
  rcases getKey_ok h ha v with ⟨k', ⟨pre, post, e, h1, _⟩, h2⟩ | ⟨hx, _⟩
  · have hk' : k' ∈ Dict.keys d := by rw [e]; simp
    rw [h2, nodup_flatMap_unique hn hk hk' hv h1]
  · exact absurd hv (hx k hk)

/-! ### C52 -/

/-- The state of an EnvKeywordParser that was created. -/
theorem ekpNew_ok {build sys : Str} {k : EKP} (h : EKP.new E n build sys = .ok k) :
    ∃ d o1, edGetItem E n sys (Obj.fresh E ()) = (.ok d, o1) ∧ AllAcceptable d ∧ (allValues d).Nodup ∧
      k = { obj := o1, buildName := build, systemName := sys, envNames := sortByLen (Dict.keys d),
            aliases := sortByLen (allValues d), qualified := none } := by
  unfold EKP.new at h
  cases hr : edGetItem E n sys (Obj.fresh E ()) with
  | mk r o1 =>
    cases r with
    | exc e => rw [M.bind_exc hr] at h; cases h
    | diverge => rw [M.bind_diverge hr] at h; cases h
    | ok d =>
      rw [M.bind_ok hr] at h
      by_cases ha : AllAcceptable d ∧ (allValues d).Nodup
      · rw [M.bind_ok (getAliases_ok (getItem_again hr n) ha.1 ha.2)] at h
        exact ⟨d, o1, rfl, ha.1, ha.2, (Out.ok.inj h).symm⟩
      · rw [M.bind_exc (getAliases_bad (getItem_again hr n) ha)] at h; cases h

/-- C52: the constructor accepts a system exactly when every alias list obeys the rules and no alias is listed twice;
otherwise it exits; a section that cannot be read raises the failure of the read. -/
theorem C52_constructor (build sys : Str) :
    (∀ d o1, edGetItem E n sys (Obj.fresh E ()) = (.ok d, o1) →
      ((AllAcceptable d ∧ (allValues d).Nodup) → ∃ k, EKP.new E n build sys = .ok k) ∧
      (¬ (AllAcceptable d ∧ (allValues d).Nodup) → EKP.new E n build sys = .exc .systemExit)) ∧
    (∀ e o1, edGetItem E n sys (Obj.fresh E ()) = (.exc e, o1) → EKP.new E n build sys = .exc e) := by
  refine ⟨fun d o1 hr => ⟨fun ha => ?_, fun ha => ?_⟩, fun e o1 hr => ?_⟩
  · unfold EKP.new
    rw [M.bind_ok hr, M.bind_ok (getAliases_ok (getItem_again hr n) ha.1 ha.2)]
    exact ⟨_, rfl⟩
  · unfold EKP.new
    rw [M.bind_ok hr, M.bind_exc (getAliases_bad (getItem_again hr n) ha)]
  · unfold EKP.new
    rw [M.bind_exc hr]

theorem simple_of {d : Options} (hs : SimpleNames d) {x : Str} (hx : x ∈ Dict.keys d ∨ x ∈ allValues d) :
    simplePattern x = true := by
  rw [simplePattern, List.all_eq_true]
  intro c hc
  have := hs x hx c hc
  simpa [metaChars] using this

/-- C52: the name of the environment is determined. -/
theorem C52_unique (hn : (allValues d).Nodup) {build e e' : Str} (h : Chosen d build e) (h' : Chosen d build e') : e = e' := by
  cases h with
  | name h =>
    cases h' with
    | name h' => exact best_unique h h'
    | alias hx => obtain ⟨pre, post, e0, h1, _⟩ := h; exact absurd h1 (hx _ (by rw [e0]; simp))
  | «alias» hx hb hk hv =>
    cases h' with
    | name h' => obtain ⟨pre, post, e0, h1, _⟩ := h'; exact absurd h1 (hx _ (by rw [e0]; simp))
    | «alias» _ hb' hk' hv' =>
      cases best_unique hb hb'
      exact nodup_flatMap_unique hn hk hk' hv hv'

/-- What the first read of `qualified_env_name` yields. -/
theorem qualified_first {build sys : Str} {H : Host} {o1 : CObj} (hr : edGetItem E n sys (Obj.fresh E ()) = (.ok d, o1))
    (ha : AllAcceptable d) (hn : (allValues d).Nodup) (hs : SimpleNames d) {k : EKP} (hk : k =
      { obj := o1, buildName := build, systemName := sys, envNames := sortByLen (Dict.keys d),
            aliases := sortByLen (allValues d), qualified := none }) :
    (∃ e, Chosen d build e ∧ EKP.qualifiedEnvName E n H k =
      (.ok (sys ++ py!"_" ++ e), { k with qualified := some (sys ++ py!"_" ++ e) })) ∨
    ((∀ e, ¬ Chosen d build e) ∧ EKP.qualifiedEnvName E n H k = (.exc .systemExit, k)) := by
  subst hk
  unfold EKP.qualifiedEnvName
  dsimp only
  rw [firstMatch_simple (fun x hx => simple_of hs (.inl (mem_sortByLen.1 hx))),
    firstMatch_simple (fun x hx => simple_of hs (.inr (mem_sortByLen.1 hx)))]
  have hb : ∀ {l : List Str} {x : Str}, firstWith (fun x => matchName x build || matchAfterDelim x build) (sortByLen l) = some x →
      Best (Occurs · build) l x := fun h => (best_congr fun y => occurs_iff).1 (best_of_firstWith h)
  have hno : ∀ {l : List Str}, firstWith (fun x => matchName x build || matchAfterDelim x build) (sortByLen l) = none →
      ∀ x ∈ l, ¬ Occurs x build := fun h x hx hc => by
    have := firstWith_none.1 h x (mem_sortByLen.2 hx)
    rw [occurs_iff.2 hc] at this; cases this
  cases h1 : firstWith (fun x => matchName x build || matchAfterDelim x build) (sortByLen (Dict.keys d)) with
  | some e => exact .inl ⟨e, .name (hb h1), rfl⟩
  | none =>
    dsimp only
    cases h2 : firstWith (fun x => matchName x build || matchAfterDelim x build) (sortByLen (allValues d)) with
    | none =>
      refine .inr ⟨fun e hc => ?_, rfl⟩
      cases hc with
      | name h => obtain ⟨pre, post, e0, h3, _⟩ := h; exact hno h1 _ (by rw [e0]; simp) h3
      | «alias» _ h => obtain ⟨pre, post, e0, h3, _⟩ := h; exact hno h2 _ (by rw [e0]; simp) h3
    | some al =>
      have hbest := hb h2
      have hm : al ∈ allValues d := by obtain ⟨pre, post, e0, _⟩ := hbest; rw [e0]; simp
      obtain ⟨e, he, hv⟩ := List.mem_flatMap.1 hm
      refine .inl ⟨e, .alias (hno h1) hbest he hv, ?_⟩
      dsimp only
      rw [C51_inverse (getItem_again hr n) ha hn he hv]

/-- C52: a new EnvKeywordParser reads the system's section of the file, and its `qualified_env_name` is the system and
the chosen environment: the longest environment name in the build name, or else the environment of the longest alias
in the build name. It exits when nothing is found. (Names and aliases of ordinary characters and '.') -/
theorem C52_environment {build sys : Str} {H : Host} (hf : E.cfg.hasSection sys = true) {k : EKP}
    (h : EKP.new E n build sys = .ok k) :
    ∃ d, Resolved E sys d ∧ (SimpleNames d →
      (∀ e, Chosen d build e → (EKP.qualifiedEnvName E n H k).1 = .ok (sys ++ py!"_" ++ e)) ∧
      ((∀ e, ¬ Chosen d build e) → (EKP.qualifiedEnvName E n H k).1 = .exc .systemExit)) := by
  obtain ⟨d, o1, hr, ha, hn, hk⟩ := ekpNew_ok h
  refine ⟨d, read_resolved hf hr, fun hs => ?_⟩
  rcases qualified_first (H := H) hr ha hn hs hk with ⟨e, h1, h2⟩ | ⟨h1, h2⟩
  · refine ⟨fun e' he' => ?_, fun hno => absurd h1 (hno e)⟩
    rw [h2, C52_unique hn h1 he']
  · exact ⟨fun e he => absurd he (h1 e), fun _ => by rw [h2]⟩

/-- C52: the name is computed once: later reads return it again, also after an assignment to `build_name`. -/
theorem C52_computed_once {H : Host} {k k' : EKP} {q : Str} (h : EKP.qualifiedEnvName E n H k = (.ok q, k')) (b : Str) :
    EKP.qualifiedEnvName E n H k' = (.ok q, k') ∧
    (EKP.qualifiedEnvName E n H { k' with buildName := b }).1 = .ok q := by
  have key : k'.qualified = some q := by
    unfold EKP.qualifiedEnvName at h
    split at h
    · rename_i q' hq; cases h; exact hq
    · split at h
      · cases h
      · cases h
      · cases h; rfl
      · split at h
        · cases h
        · cases h
        · cases h
        · split at h
          · cases h; rfl
          · cases h
          · cases h
  unfold EKP.qualifiedEnvName
  rw [key]
  exact ⟨rfl, rfl⟩

/-! An example: two environments, the second section uses the first one. -/

/--
```
[sys-1]
intel-18.0.5-mpich:
    intel-18  # comment
    intel
intel-19:
    default-env
[sys-2]
use sys-1:
```
-/
def envsCfg : Cfg where
  sections :=
    [(py!"sys-1", [(py!"intel-18.0.5-mpich", some py!"\nintel-18  # comment\nintel"), (py!"intel-19", some py!"\ndefault-env")]),
     (py!"sys-2", [(py!"use sys-1", some [])])]

/-- A host without regular expressions. -/
def host0 : Host where
  hostname := py!"node-17"
  rx _ _ := .error .valueError
  lower s := s
  upper s := s.map fun c => if 'a' ≤ c ∧ c ≤ 'z' then Char.ofNat (c.toNat - 32) else c

/-- The name for a build name on a system, if all goes well. -/
def nameFor (build sys : Str) : Out Str :=
  match EKP.new (cls envsCfg) 10 build sys with
  | .ok k => (EKP.qualifiedEnvName (cls envsCfg) 10 host0 k).1
  | .exc e => .exc e
  | .diverge => .diverge

example : nameFor py!"x_intel-18_opt" py!"sys-2" = .ok py!"sys-2_intel-18.0.5-mpich" ∧
    nameFor py!"intel_intel-19" py!"sys-1" = .ok py!"sys-1_intel-19" ∧
    nameFor py!"intel-19x" py!"sys-1" = .exc .systemExit := by decide +kernel

/-- The hypotheses of C50-C52 hold here. -/
example : ∃ d o1, edGetItem (cls envsCfg) 10 py!"sys-2" (Obj.fresh (cls envsCfg) ()) = (.ok d, o1) ∧
    Dict.keys d = [py!"intel-18.0.5-mpich", py!"intel-19"] ∧
    allValues d = [py!"intel-18", py!"intel", py!"default-env"] ∧ (allValues d).Nodup := by
  refine ⟨_, _, rfl, ?_⟩
  decide +kernel

example : ∃ k, EKP.new (cls envsCfg) 10 py!"x_intel-18_opt" py!"sys-2" = .ok k := ⟨_, rfl⟩

/-- A value that is also a key: the constructor exits. -/
example : EKP.new { cls envsCfg with cfg := { sections := [(py!"s", [(py!"a", some py!"b"), (py!"b", some [])])] } } 10 py!"x" py!"s"
    = .exc .systemExit := by rfl

end
end CPE.Props
