import Verif.Proofs.Closed
import Verif.Props.Example
/-
C01, C02, C05, C06, C13: what the enhanced data of a section is.
-/
namespace CPE.Props
open Spec
variable {δ ω : Type} {E : Env δ ω} {n m : Nat} {s : Str} {i f f' : Bool} {o o' o1 o2 : Obj δ ω} {r r1 r2 : δ}

/-! ### C01 -/

/-- C01: for every file, class, settings and state, if `parse_section(s)` succeeds and `s` had no data
before, then the enhanced data of `s` is the last-wins merge of the unhandled options of the depth-first
unrolling of DEFAULT (if any) followed by `s`. -/
theorem C01_parse_resolves (hfresh : Dict.get? o.data s = none ∨ Dict.get? o.data s = some [])
    (h : parseSection E n s true f o = (.ok r, o')) :
    ∃ d, Dict.get? o'.data s = some d ∧ Resolved E s d := by
  obtain ⟨evs, ht⟩ := parseTrace_total E s true f
  obtain ⟨evs', ht', hst⟩ := parseTrace_fin ht
  refine ⟨_, parseSection_ok_data h ht, evs', ht', ?_⟩
  rw [hst, lastWins_iff]
  rcases hfresh with h1 | h1 <;> rw [h1] <;> rfl

example : Resolved Example.env py!"A"
    [(py!"base", some py!"0"), (py!"key 1", some py!"v"), (py!"key 3", none), (py!"key 2", some py!"2")] := by
  obtain ⟨d, h1, h2⟩ := C01_parse_resolves (E := Example.env) (n := 12) (s := py!"A") (f := true)
    (o := Example.o0) (.inl rfl) (o' := Example.oA) (r := [py!"init", py!"A/foo", py!"final"]) (Prod.ext Example.parse_A rfl)
  rw [Example.data_A] at h1
  cases h1; exact h2

/-- C01: every section of every file has exactly one resolved dict (keys in order of first write). -/
theorem C01_resolved_exists_unique (E : Env δ ω) (s : Str) : ∃ d, Resolved E s d ∧ ∀ d', Resolved E s d' → d' = d := by
  obtain ⟨d, hd⟩ := resolved_total E s
  exact ⟨d, hd, fun d' h => resolved_unique h hd⟩

/-- C01: when `s` has data already, a successful parse writes the same options, in the same order, on top of
them: old keys keep their position, new keys follow in order of first write, the last write wins. -/
theorem C01_merge_onto_existing (h : parseSection E n s i f o = (.ok r, o')) {evs : List (Ev δ ω)}
    (ht : ParseTrace E s i f evs) :
    ∃ d, Dict.get? o'.data s = some d ∧
      Dict.keys d = Dict.keys ((Dict.get? o.data s).getD []) ++
        (firstOccurrences ((stores evs).map Prod.fst)).filter
          (fun x => decide (x ∉ Dict.keys ((Dict.get? o.data s).getD []))) ∧
      ∀ k, Dict.get? d k = match lastWrite (stores evs) k with
        | some v => some v
        | none => Dict.get? ((Dict.get? o.data s).getD []) k :=
  ⟨_, parseSection_ok_data h ht, keys_writeAll _ _, fun _ => get?_writeAll _ _ _⟩

example : ∃ evs, ParseTrace Example.env py!"A" true true evs ∧
    (parseSection Example.env 12 py!"A" true true Example.oA).1 = .ok [py!"init", py!"A/foo", py!"final"] :=
  let ⟨evs, h⟩ := parseTrace_total Example.env py!"A" true true
  ⟨evs, h, rfl⟩

/-- C01: the unrolling of a parse exists and is unique, and (DEFAULT not leading back to `s`) the whole
observable outcome of `parse_section(s)` - success or exception, data of all sections, shared data, subclass
state, printed notices, remembered result - is that of replaying it event by event. -/
theorem C01_parse_is_replay (hs : s ≠ []) {evs : List (Ev δ ω)} (ht : ParseTrace E s i f evs)
    (hn : E.cfg.sectionNames.length + 3 ≤ n)
    (hd : i = true → E.cfg.hasSection E.defaultName = true → s = E.defaultName ∨ ¬ Reaches E E.defaultName s) :
    let start : Core δ ω := { o.toCore with shared := E.emptyShared, checked := setAdd o.checked s }
    let res := replay E s evs start
    (∀ evs', ParseTrace E s i f evs' → evs' = evs) ∧
    (parseSection E n s i f o).2.toCore = res.2 ∧
    (match res.1 with
     | none => (parseSection E n s i f o).1 = .ok res.2.shared ∧
        (parseSection E n s i f o).2.lastResult = some res.2.shared
     | some e => (parseSection E n s i f o).1 = .exc e ∧
        (parseSection E n s i f o).2.lastResult = o.lastResult) := by
  obtain ⟨h1, h2, h3⟩ := parseSection_replay (o := o) hs ht hn hd
  refine ⟨fun evs' h => parseTrace_det h ht, h2, ?_⟩
  change match (replay E s evs (startCore E s o.toCore)).1 with
    | none => (parseSection E n s i f o).1 = .ok (replay E s evs (startCore E s o.toCore)).2.shared ∧
        (parseSection E n s i f o).2.lastResult = some (replay E s evs (startCore E s o.toCore)).2.shared
    | some e => (parseSection E n s i f o).1 = .exc e ∧ (parseSection E n s i f o).2.lastResult = o.lastResult
  cases hr : (replay E s evs (startCore E s o.toCore)).1 with
  | none => rw [hr] at h1 h3; exact ⟨h1, h3⟩
  | some e => rw [hr] at h1 h3; exact ⟨h1, h3⟩

example : Example.env.cfg.sectionNames.length + 3 ≤ 12 := by decide

/-! ### C02 -/

/-- C02: the keys of the resolved dict of `s` are the unhandled options of all sections reachable from `s`
or from DEFAULT, whatever cycles there are. -/
theorem C02_keys_are_closure {d : Options} (h : Resolved E s d) (k : Str) :
    k ∈ Dict.keys d ↔ ∃ t, Relevant E s t ∧ HasUnhandled E t k := by
  obtain ⟨evs, ht, hl⟩ := h
  rw [hl.1, mem_firstOccurrences, List.mem_map]
  obtain ⟨evD, evR, hD, hD', hR, rfl⟩ := parseTrace_inv ht
  have origin : ∀ {a v}, Unrolls E s (.sec [] a) evD ∨ Unrolls E s (.sec [] a) evR →
      (Unrolls E s (.sec [] a) evD → .store k v ∈ evD) → (Unrolls E s (.sec [] a) evR → .store k v ∈ evR) →
      ∃ t, Reaches E a t ∧ HasUnhandled E t k := by
    intro a v hu h1 h2
    have ho : Origin E s a (.store k v) := by
      rcases hu with hu | hu
      · exact unrolls_origin hu _ (h1 hu)
      · exact unrolls_origin hu _ (h2 hu)
    cases ho with
    | option hr hk hm hev he =>
      rename_i t keys key evs
      refine ⟨t, hr, keys, key, v, hk, hm, ?_⟩
      rcases meaning_cases hev with ⟨e, rfl⟩ | ⟨k', v', rfl⟩ | ⟨_, _, rfl⟩ | ⟨_, _, _, rfl⟩ <;> simp at he
      obtain ⟨rfl, rfl⟩ := he
      exact meaning_store_root hev
  constructor
  · rintro ⟨⟨k', v⟩, hkv, rfl⟩
    rw [mem_stores] at hkv
    simp only [if_true, List.mem_append, List.mem_singleton, reduceCtorEq, or_false, false_or] at hkv
    rcases hkv with hkv | hkv
    · by_cases hdef : E.cfg.hasSection E.defaultName = true
      · have hu := hD ⟨rfl, hdef⟩
        have := unrolls_origin hu _ hkv
        obtain ⟨t, h1, h2⟩ := origin (a := E.defaultName) (v := v) (.inl hu) (fun _ => hkv) (fun hu' => by
          rw [unrolls_det hu' hu]; exact hkv)
        exact ⟨t, .inr ⟨hdef, h1⟩, h2⟩
      · rw [hD' (by simp [hdef])] at hkv
        cases hkv
    · obtain ⟨t, h1, h2⟩ := origin (a := s) (v := v) (.inr hR) (fun hu' => by
          rw [unrolls_det hu' hR]; exact hkv) (fun _ => hkv)
      exact ⟨t, .inl h1, h2⟩
  · rintro ⟨t, hrel, keys, key, v, hk, hm, hme⟩
    refine ⟨(k, v), ?_, rfl⟩
    rw [mem_stores]
    have hme' := meaning_store_root (root' := s) hme
    rcases hrel with hr | ⟨hdef, hr⟩
    · have := unrolls_covers_option hR hr hk hm hme' (.store k v) (by simp)
      simp [this]
    · have := unrolls_covers_option (hD ⟨rfl, hdef⟩) hr hk hm hme' (.store k v) (by simp)
      simp [this]

/-- C02 on the API: after a successful first parse of `s`. -/
theorem C02_parse_keys (hfresh : Dict.get? o.data s = none ∨ Dict.get? o.data s = some [])
    (h : parseSection E n s true f o = (.ok r, o')) :
    ∃ d, Dict.get? o'.data s = some d ∧ ∀ k, k ∈ Dict.keys d ↔ ∃ t, Relevant E s t ∧ HasUnhandled E t k := by
  obtain ⟨d, h1, h2⟩ := C01_parse_resolves hfresh h
  exact ⟨d, h1, C02_keys_are_closure h2⟩

/-- In the example the cyclic section C, two links away from A, contributes `key 3`. -/
example : ∃ t, Relevant Example.env py!"A" t ∧ HasUnhandled Example.env t py!"key 3" := by
  obtain ⟨d, h1, h2⟩ := C02_parse_keys (E := Example.env) (n := 12) (s := py!"A") (f := true)
    (o := Example.o0) (.inl rfl) (o' := Example.oA) (r := [py!"init", py!"A/foo", py!"final"]) (Prod.ext Example.parse_A rfl)
  rw [Example.data_A] at h1
  cases h1
  exact (h2 _).mp (by decide)

/-! ### C05 -/

/-- The stored dicts have no repeated key (true of every Python dict; kept by every operation,
`C05_keys_stay_distinct` in Props/Access). -/
def KeysDistinct (o : Obj δ ω) : Prop := ∀ s d, Dict.get? o.data s = some d → (Dict.keys d).Nodup

/-- C05: a second successful parse of a section leaves all stored data, order included, as they were. -/
theorem C05_reparse_same_data (hk : KeysDistinct o) (h1 : parseSection E n s i f o = (.ok r1, o1))
    (h2 : parseSection E m s i f' o1 = (.ok r2, o2)) : o2.data = o1.data := by
  obtain ⟨evs, ht⟩ := parseTrace_total E s i f
  obtain ⟨evs', ht'⟩ := parseTrace_total E s i f'
  have hr1 := (parseSection_ok h1).2.2.2 evs ht
  have hr2 := (parseSection_ok h2).2.2.2 evs' ht'
  have hd := parseSection_ok_data h1 ht
  obtain ⟨a, hta, hsa⟩ := parseTrace_fin ht
  obtain ⟨b, htb, hsb⟩ := parseTrace_fin ht'
  have hst : stores evs' = stores evs := by rw [← hsa, ← hsb, parseTrace_det hta htb]
  have hvs : ∀ t ∈ visits evs', t ∈ visits evs := by
    cases ht with
    | mk a1 a2 a3 =>
      cases ht' with
      | mk b1 b2 b3 =>
        rename_i evD evR evD' evR'
        have hR := unrolls_det a3 b3
        have hD : evD = evD' := by
          by_cases hx : i = true ∧ E.cfg.hasSection E.defaultName = true
          · exact unrolls_det (a1 hx) (b1 hx)
          · rw [a2 hx, b2 hx]
        subst hR; subst hD
        intro t
        cases i <;> cases f <;> cases f' <;> simp [visits_append, visits]
  have hc := replay_data_closed E s evs' _ _ hr2 (fun t htv => replay_visited E s evs _ _ hr1 t (hvs t htv)) _ hd
  rw [hc]
  change Dict.set o1.data s _ = o1.data
  refine Dict.set_eq_self _ _ _ ?_
  rw [hd, hst]
  refine congrArg some (writeAll_idem _ ?_ _).symm
  cases hx : Dict.get? o.data s with
  | none => simp [Dict.keys]
  | some d => exact hk s d hx

example : KeysDistinct Example.o0 ∧
    (∃ r, (parseSection Example.env 12 py!"A" true true Example.oA).1 = .ok r) ∧
    (parseSection Example.env 12 py!"A" true true Example.oA).2.data = Example.oA.data := by
  refine ⟨(fun s d h => by cases h), ⟨_, rfl⟩, ?_⟩
  exact C05_reparse_same_data (E := Example.env) (n := 12) (m := 12) (s := py!"A") (i := true) (f := true) (f' := true)
    (o := Example.o0) (fun s d h => by cases h) (Prod.ext Example.parse_A rfl)
    (r2 := [py!"init", py!"A/foo", py!"final"]) (Prod.ext rfl rfl)

/-- A handler whose return value, exception and effect on the shared data do not depend on the attributes of
the subclass. -/
def Stateless (h : Handler δ ω) : Prop :=
  ∀ c d w w', (h.run c d w).1 = (h.run c d w').1 ∧ (h.run c d w).2.1 = (h.run c d w').2.1

theorem evStep_stateless {root : Str} {ev : Ev δ ω} (hc : ∀ h c, ev = .call h c → Stateless h) (c c' : Core δ ω)
    (hsh : c'.shared = c.shared) :
    (evStep E root ev c').1 = (evStep E root ev c).1 ∧ (evStep E root ev c').2.shared = (evStep E root ev c).2.shared := by
  have hn : ∀ (ev : Event) (th : Nat) (e : PyExc) (c c' : Core δ ω), c'.shared = c.shared →
      (notify E ev th e c').1 = (notify E ev th e c).1 ∧ (notify E ev th e c').2.shared = (notify E ev th e c).2.shared := by
    intro ev th e c c' h
    refine ⟨?_, by rw [(notify_core E ev th e c').2.2.1, (notify_core E ev th e c).2.2.1, h]⟩
    unfold notify
    split
    · rfl
    · split <;> rfl
  cases ev with
  | visit s => simp only [evStep]; refine ⟨trivial, ?_⟩; split <;> split <;> exact hsh
  | missing s => exact ⟨rfl, hsh⟩
  | store k v => exact ⟨rfl, hsh⟩
  | fail e => exact ⟨rfl, hsh⟩
  | cycle a b => exact hn _ _ _ _ _ hsh
  | ambiguous op => exact hn _ _ _ _ _ hsh
  | call h hc' =>
    obtain ⟨h1, h2⟩ := hc h hc' rfl hc' c.shared c'.self c.self
    simp only [evStep, hsh]
    rw [h1]
    cases hv : (h.run hc' c.shared c.self).1 with
    | error e => exact ⟨rfl, h2⟩
    | ok v =>
      dsimp only
      split
      · unfold onReturn
        cases v with
        | notInt => exact ⟨rfl, h2⟩
        | int i =>
          dsimp only
          split
          · exact ⟨rfl, h2⟩
          · split
            · exact ⟨rfl, h2⟩
            · exact hn _ _ _ _ _ h2
      · exact ⟨rfl, h2⟩

theorem replay_stateless {root : Str} {evs : List (Ev δ ω)} (hc : ∀ h c, .call h c ∈ evs → Stateless h) (c c' : Core δ ω)
    (hsh : c'.shared = c.shared) :
    (replay E root evs c').1 = (replay E root evs c).1 ∧
    (replay E root evs c').2.shared = (replay E root evs c).2.shared := by
  induction evs generalizing c c' with
  | nil => exact ⟨rfl, hsh⟩
  | cons ev evs ih =>
    obtain ⟨h1, h2⟩ := evStep_stateless (E := E) (root := root) (ev := ev) (fun h c e => hc h c (by simp [e])) c c' hsh
    simp only [replay]
    cases hs : evStep E root ev c with
    | mk x c1 =>
      cases hs' : evStep E root ev c' with
      | mk x' c1' =>
        rw [hs, hs'] at h1 h2
        dsimp only at h1 h2
        subst h1
        cases x' with
        | none => exact ih (fun h c hm => hc h c (by simp [hm])) c1 c1' h2
        | some e => exact ⟨rfl, h2⟩

/-- C05: if the handlers do not depend on the attributes of the subclass, the second parse succeeds as well,
with the same result and the same data. -/
theorem C05_reparse_succeeds (hk : KeysDistinct o) (h1 : parseSection E n s i f o = (.ok r1, o1))
    (hn : E.cfg.sectionNames.length + 3 ≤ m)
    (hst : ∀ evs, ParseTrace E s i f evs → ∀ h c, .call h c ∈ evs → Stateless h) :
    ∃ o2, parseSection E m s i f o1 = (.ok r1, o2) ∧ o2.data = o1.data := by
  obtain ⟨evs, ht⟩ := parseTrace_total E s i f
  obtain ⟨hs, hr, _, hrep⟩ := parseSection_ok h1
  have hr1 := hrep evs ht
  have hd : i = true → E.cfg.hasSection E.defaultName = true → s = E.defaultName ∨ ¬ Reaches E E.defaultName s := by
    rintro rfl hdef
    rw [parseSection_apply E n hs] at h1
    cases hp : parseR E n s s true f { toCore := startCore E s o.toCore, processed := [], log := [] } with
    | mk x w' =>
      rw [hp] at h1
      cases x with
      | ok u => exact success_unreached hp rfl hdef
      | exc e => cases h1
      | diverge => cases h1
  obtain ⟨g1, g2, g3⟩ := parseSection_replay (n := m) (o := o1) hs ht hn hd
  obtain ⟨k1, k2⟩ := replay_stateless (E := E) (root := s) (hst evs ht) (startCore E s o.toCore) (startCore E s o1.toCore) rfl
  rw [hr1] at k1 k2
  rw [k1] at g1
  have heq : parseSection E m s i f o1 = (.ok r1, (parseSection E m s i f o1).2) := by
    refine Prod.ext ?_ rfl
    rw [g1, k2]
    simp only [outcomeV, hr]
  exact ⟨_, heq, C05_reparse_same_data hk h1 heq⟩

example : Stateless Example.setVar ∧ Stateless (Example.hook py!"init") := ⟨fun _ _ _ _ => ⟨rfl, rfl⟩, fun _ _ _ _ => ⟨rfl, rfl⟩⟩

/-! ### C06 -/

/-- C06: whatever `parse_section(s)` does (succeed, raise, even recurse without bound), another section `t`
keeps its data; if it had none, it gets at most an empty dict, and only if the file has `t`. -/
theorem C06_other_sections_untouched (E : Env δ ω) (n : Nat) (s : Str) (i f : Bool) (o : Obj δ ω) (t : Str) (ht : t ≠ s) :
    Dict.get? (parseSection E n s i f o).2.data t = Dict.get? o.data t ∨
    (Dict.get? o.data t = none ∧ Dict.get? (parseSection E n s i f o).2.data t = some [] ∧
      (E.cfg.optionNames t).isSome) := parseSection_frame E n s i f o t ht

/-- C06: the sections that get a new entry are reachable from `s` or from DEFAULT. -/
theorem C06_new_entries_are_visited (hs : s ≠ []) (hn : E.cfg.sectionNames.length + 3 ≤ n)
    (hd : i = true → E.cfg.hasSection E.defaultName = true → s = E.defaultName ∨ ¬ Reaches E E.defaultName s)
    (t : Str) (ht : t ≠ s) (h0 : Dict.get? o.data t = none)
    (h1 : Dict.get? (parseSection E n s i f o).2.data t ≠ none) : Relevant E s t := by
  obtain ⟨evs, htr⟩ := parseTrace_total E s i f
  obtain ⟨_, h2, _⟩ := parseSection_replay (o := o) hs htr hn hd
  rw [h2] at h1
  rcases replay_other E s t ht evs (startCore E s o.toCore) with hx | ⟨_, _, hv⟩
  · rw [hx] at h1; exact absurd h0 h1
  · rw [mem_visits] at hv
    obtain ⟨evD, evR, hD, hD', hR, rfl⟩ := parseTrace_inv htr
    have hv' : Ev.visit t ∈ evD ∨ Ev.visit t ∈ evR := by
      cases i <;> cases f <;> simpa using hv
    have org : ∀ a evs, Unrolls E s (.sec [] a) evs → .visit t ∈ evs → Reaches E a t := by
      intro a evs hu hm
      have := unrolls_origin hu _ hm
      cases this with
      | visit h => exact h
      | option _ _ _ hm he =>
        rcases meaning_cases hm with ⟨e, rfl⟩ | ⟨_, _, rfl⟩ | ⟨_, _, rfl⟩ | ⟨_, _, _, rfl⟩ <;> simp at he
    rcases hv' with hv | hv
    · by_cases hx : i = true ∧ E.cfg.hasSection E.defaultName = true
      · exact .inr ⟨hx.2, org _ _ (hD hx) hv⟩
      · rw [hD' hx] at hv; cases hv
    · exact .inl (org _ _ hR hv)

/-- A failing parse of D after a parse of A: A keeps its data, DEFAULT and D have entries, H has none. -/
example : let o := (parseSection Example.env 12 py!"D" true true Example.oA).2
    Dict.get? o.data py!"A" = Dict.get? Example.oA.data py!"A" ∧ Dict.get? o.data py!"DEFAULT" = some [] ∧
    Dict.get? o.data py!"H" = none ∧ (parseSection Example.env 12 py!"D" true true Example.oA).1 = .exc .keyError := ⟨rfl, rfl, rfl, rfl⟩

/-! ### C13 -/

/-- C13: when the DEFAULT section exists, in the data of `s` after a successful parse the options of the unrolling
of `s` override those of the unrolling of DEFAULT; keys written only by DEFAULT keep DEFAULT's last value; the keys of
DEFAULT come first. -/
theorem C13_default_is_overridden (hfresh : Dict.get? o.data s = none ∨ Dict.get? o.data s = some [])
    (h : parseSection E n s true f o = (.ok r, o')) (hdef : E.cfg.hasSection E.defaultName = true) :
    ∃ d evD evR, Dict.get? o'.data s = some d ∧
      Unrolls E s (.sec [] E.defaultName) evD ∧ Unrolls E s (.sec [] s) evR ∧
      (∀ k, Dict.get? d k = match lastWrite (stores evR) k with
        | some v => some v
        | none => lastWrite (stores evD) k) ∧
      Dict.keys d = firstOccurrences ((stores evD).map Prod.fst ++ (stores evR).map Prod.fst) := by
  obtain ⟨d, hd, evs, ht, hl⟩ := C01_parse_resolves hfresh h
  obtain ⟨evD, evR, hD, _, hR, rfl⟩ := parseTrace_inv ht
  refine ⟨d, evD, evR, hd, hD ⟨rfl, hdef⟩, hR, fun k => ?_, ?_⟩
  · rw [hl.2 k]
    have := get?_writeAll [] (stores evD ++ stores evR) k
    rw [writeAll_append, get?_writeAll, get?_writeAll] at this
    simp only [if_true, stores_append, stores, List.nil_append, List.append_nil]
    cases h1 : lastWrite (stores evD ++ stores evR) k <;> cases h2 : lastWrite (stores evR) k <;>
      cases h3 : lastWrite (stores evD) k <;> rw [h1, h2, h3] at this <;> first | rfl | exact this.symm | cases this
  · rw [hl.1]
    simp [stores_append, stores]

/-- In the example `key 1` is given by both DEFAULT and A, `base` by DEFAULT alone. -/
example : Dict.get? ((Dict.get? Example.oA.data py!"A").getD []) py!"key 1" = some (some py!"v") ∧
    Dict.get? ((Dict.get? Example.oA.data py!"A").getD []) py!"base" = some (some py!"0") ∧
    Example.env.cfg.hasSection Example.env.defaultName = true := ⟨rfl, rfl, rfl⟩

/-- C13: parsing the DEFAULT section itself goes through its options twice: its handlers are called twice, between
the hooks, and its options are written twice. -/
theorem C13_default_itself_twice (hdef : E.cfg.hasSection E.defaultName = true)
    (h : parseSection E n E.defaultName true true o = (.ok r, o')) :
    ∃ ev, Unrolls E E.defaultName (.sec [] E.defaultName) ev ∧
      (r, o'.self) = foldCalls
        ((E.hookInit, hookCall E.defaultName py!"handler_initialize") :: calls ev ++ calls ev ++
          [(E.hookFinal, hookCall E.defaultName py!"handler_finalize")]) (E.emptyShared, o.self) ∧
      replay E E.defaultName (.call E.hookInit (hookCall E.defaultName py!"handler_initialize") :: ev ++ ev ++
          [.call E.hookFinal (hookCall E.defaultName py!"handler_finalize")])
        { o.toCore with shared := E.emptyShared, checked := setAdd o.checked E.defaultName } = (none, o'.toCore) := by
  obtain ⟨evs, ht⟩ := parseTrace_total E E.defaultName true true
  obtain ⟨_, hr, _, hrep⟩ := parseSection_ok h
  have hrep := hrep evs ht
  have h1 := replay_state E _ evs _ _ hrep
  obtain ⟨evD, evR, hD, _, hR, rfl⟩ := parseTrace_inv ht
  have := unrolls_det (hD ⟨rfl, hdef⟩) hR
  subst this
  refine ⟨evD, hR, ?_, ?_⟩
  · rw [hr, h1]
    simp [calls_append, calls, startCore]
  · simpa [startCore] using hrep

/-- The handler of an option of DEFAULT runs twice when DEFAULT is parsed. -/
example : (parseSection { Example.env with cfg := { sections := [(py!"DEFAULT", [(py!"set-var foo", some py!"1")])] } } 12
    py!"DEFAULT" true true Example.o0).1 = .ok [py!"init", py!"DEFAULT/foo", py!"DEFAULT/foo", py!"final"] := rfl

/-- C13: without a DEFAULT section only the section's own unrolling counts. -/
theorem C13_without_default (hfresh : Dict.get? o.data s = none ∨ Dict.get? o.data s = some [])
    (h : parseSection E n s true f o = (.ok r, o')) (hdef : E.cfg.hasSection E.defaultName = false) :
    ∃ d evR, Dict.get? o'.data s = some d ∧ Unrolls E s (.sec [] s) evR ∧ LastWins (stores evR) d := by
  obtain ⟨d, hd, evs, ht, hl⟩ := C01_parse_resolves hfresh h
  obtain ⟨evD, evR, _, hD, hR, rfl⟩ := parseTrace_inv ht
  refine ⟨d, evR, hd, hR, ?_⟩
  rw [hD (by simp [hdef])] at hl
  simpa [stores_append, stores] using hl

end CPE.Props
