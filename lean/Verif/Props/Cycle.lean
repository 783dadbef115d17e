import Verif.Props.Resolve
/-
C03, C04: termination and cycles of `use`.
-/
namespace CPE.Props
open Spec
variable {δ ω : Type} {E : Env δ ω} {n m : Nat} {s : Str} {i f : Bool} {o o' : Obj δ ω} {r : δ}

/-! ### C03 -/

/-- C03: a recursion depth of the number of sections plus three is enough for `parse_section(s)` to come to
an end, whatever cycles there are, if DEFAULT does not lead to `s`. -/
theorem C03_terminates (E : Env δ ω) (s : Str) (i f : Bool) (o : Obj δ ω)
    (hd : i = true → E.cfg.hasSection E.defaultName = true → s = E.defaultName ∨ ¬ Reaches E E.defaultName s)
    (hn : E.cfg.sectionNames.length + 3 ≤ n) : (parseSection E n s i f o).1 ≠ .diverge := by
  by_cases hs : s = []
  · subst hs; rw [parseSection_nil]; exact fun h => by cases h
  · obtain ⟨evs, ht⟩ := parseTrace_total E s i f
    rw [(parseSection_replay hs ht hn hd).1]
    exact outcomeV_ne_diverge _ _

theorem example_default_isolated : ¬ Reaches Example.env Example.env.defaultName py!"A" := by
  intro h
  have : ∀ a b, Reaches Example.env a b → a = py!"DEFAULT" → b = py!"DEFAULT" := by
    intro a b hr
    induction hr with
    | refl => exact id
    | step hl _ ih =>
      intro ha
      subst ha
      obtain ⟨keys, k, h1, h2, h3⟩ := hl
      have hk : keys = [py!"base", py!"key 1"] := (Option.some.inj h1).symm
      subst hk
      have : k = py!"base" ∨ k = py!"key 1" := by simpa using h2
      rcases this with rfl | rfl <;> cases h3
  have := this _ _ h rfl
  cases this

/-- The example file has the cycle A, B, C, A. -/
example : (parseSection Example.env 9 py!"A" true true Example.o0).1 ≠ .diverge :=
  C03_terminates Example.env _ _ _ _ (fun _ _ => .inr example_default_isolated) (by decide)

/-- C03: once the depth is enough, more of it changes nothing: the outcome does not depend on it. -/
theorem C03_depth_irrelevant (E : Env δ ω) (s : Str) (i f : Bool) (o : Obj δ ω)
    (h : (parseSection E n s i f o).1 ≠ .diverge) (hm : n ≤ m) : parseSection E m s i f o = parseSection E n s i f o := by
  by_cases hs : s = []
  · subst hs; rfl
  · rw [parseSection_apply E n hs] at h ⊢
    rw [parseSection_apply E m hs]
    rw [parseR_fuel_mono (n := n) (m := m) ?_ hm]
    intro hx
    apply h
    cases hp : parseR E n s s i f { toCore := startCore E s o.toCore, processed := [], log := [] } with
    | mk a b => rw [hp] at hx; dsimp only at hx; subst hx; rfl

/-- C03: no parse can succeed, at any depth, if DEFAULT leads to the section (other than itself). -/
theorem C03_default_loop_never_succeeds (hdef : E.cfg.hasSection E.defaultName = true) (hs : s ≠ E.defaultName)
    (hr : Reaches E E.defaultName s) (n : Nat) (f : Bool) (o : Obj δ ω) (r : δ) :
    (parseSection E n s true f o).1 ≠ .ok r := by
  intro h
  by_cases h0 : s = []
  · subst h0; cases h
  · rw [parseSection_apply E n h0] at h
    cases hp : parseR E n s s true f { toCore := startCore E s o.toCore, processed := [], log := [] } with
    | mk x w' =>
      rw [hp] at h
      cases x with
      | ok u =>
        rcases success_unreached hp rfl hdef with hx | hx
        · exact hs hx
        · exact hx hr
      | exc e => cases h
      | diverge => cases h

/-- C03: if DEFAULT uses the section directly, and nothing before that fails, the recursion has no bound. -/
theorem C03_default_loop_diverges (hdef : E.cfg.hasSection E.defaultName = true) (hs : s ≠ []) (hne : s ≠ E.defaultName)
    {pre post : List Str} {k : Str} (ho : E.cfg.optionNames E.defaultName = some (pre ++ k :: post))
    (hpre : ∀ k ∈ pre, ∃ evs, meaning E s E.defaultName k = .events evs ∧ ∀ c, (replay E s evs c).1 = none)
    (hk : meaning E s E.defaultName k = .link s)
    (hinit : ∀ c, (replay E s [.call E.hookInit (hookCall s py!"handler_initialize")] c).1 = none)
    (n : Nat) (f : Bool) (o : Obj δ ω) : (parseSection E n s true f o).1 = .diverge := by
  rw [parseSection_apply E n hs]
  have := parseR_diverges (Ne.symm hne) hdef ho hpre hk hinit n f
    { toCore := startCore E s o.toCore, processed := [], log := [] } (by simp)
  generalize parseR E n s s true f _ = x at this
  obtain ⟨a, w⟩ := x
  dsimp only at this
  subst this
  rfl

example (n : Nat) : (parseSection Example.envLoop n py!"A" true true Example.o0).1 = .diverge := by
  refine C03_default_loop_diverges (E := Example.envLoop) (s := py!"A") (pre := [py!"base"]) (k := py!"use A") (post := [])
    rfl (by decide) (by decide) rfl ?_ rfl (fun c => rfl) n true _
  intro k hk
  have : k = py!"base" := by simpa using hk
  subst this
  exact ⟨[.store py!"base" (some py!"0")], rfl, fun c => rfl⟩

/-! ### C04 -/

/-- A trace meets a cyclic `use` iff some section that matters for `s` lies on a cycle of the `use` graph. -/
theorem C04_cycles_met_iff {evs : List (Ev δ ω)} (h : ParseTrace E s true f evs) :
    cycles evs ≠ [] ↔ ∃ t u, Relevant E s t ∧ Links E t u ∧ Reaches E u t := by
  obtain ⟨evD, evR, hD, hD', hR, rfl⟩ := parseTrace_inv h
  have hR' := unrolls_cycle_iff hR
  have any : ∀ l : List (Ev δ ω), cycles l ≠ [] ↔ ∃ a b, .cycle a b ∈ l := by
    intro l
    constructor
    · intro h
      cases hc : cycles l with
      | nil => exact absurd hc h
      | cons p _ => exact ⟨p.1, p.2, mem_cycles.mp (by rw [hc]; simp)⟩
    · rintro ⟨a, b, hm⟩ h0
      have := mem_cycles.mpr hm
      rw [h0] at this; cases this
  rw [any]
  have hmem : (∃ a b, Ev.cycle a b ∈ (if true = true then [Ev.call E.hookInit (hookCall s py!"handler_initialize")] else []) ++
      evD ++ evR ++ (if f = true then [Ev.call E.hookFinal (hookCall s py!"handler_finalize")] else [])) ↔
      (∃ a b, Ev.cycle a b ∈ evD) ∨ ∃ a b, Ev.cycle a b ∈ evR := by
    constructor
    · rintro ⟨a, b, h⟩
      have : Ev.cycle a b ∈ evD ∨ Ev.cycle a b ∈ evR := by cases f <;> simpa using h
      rcases this with h | h
      · exact .inl ⟨a, b, h⟩
      · exact .inr ⟨a, b, h⟩
    · rintro (⟨a, b, h⟩ | ⟨a, b, h⟩) <;> exact ⟨a, b, by simp [h]⟩
  rw [hmem, hR']
  by_cases hdef : E.cfg.hasSection E.defaultName = true
  · rw [unrolls_cycle_iff (hD ⟨rfl, hdef⟩)]
    constructor
    · rintro (⟨t, h1, u, h2⟩ | ⟨t, h1, u, h2⟩)
      · exact ⟨t, u, .inr ⟨hdef, h1⟩, h2⟩
      · exact ⟨t, u, .inl h1, h2⟩
    · rintro ⟨t, u, h1 | h1, h2⟩
      · exact .inr ⟨t, h1, u, h2⟩
      · exact .inl ⟨t, h1.2, u, h2⟩
  · rw [hD' (by simp [hdef])]
    constructor
    · rintro (⟨a, b, h⟩ | ⟨t, h1, u, h2⟩)
      · cases h
      · exact ⟨t, u, .inl h1, h2⟩
    · rintro ⟨t, u, h1 | h1, h2⟩
      · exact .inr ⟨t, h1, u, h2⟩
      · exact absurd h1.1 hdef

/-- C04: below level 5 a successful parse prints, for `ValueError`, exactly one notice for each cyclic `use` it
meets; at level 0 or with silenced warnings it prints nothing at all. -/
theorem C04_one_notice_per_cycle (h : parseSection E n s i f o = (.ok r, o')) {evs : List (Ev δ ω)}
    (ht : ParseTrace E s i f evs) :
    ∃ l, o'.out = o.out ++ l ∧
      (0 < E.level ∧ E.silentWarnings = false →
        (l.filter fun x => x.exc = .valueError) =
          List.replicate (cycles evs).length ⟨.warning, .valueError, E.compactWarnings⟩) ∧
      (E.level = 0 ∨ E.silentWarnings = true → l = []) :=
  replay_out E s evs (startCore E s o.toCore) _ ((parseSection_ok h).2.2.2 evs ht)

/-- C04: at level 5 a parse that meets a cyclic `use` does not succeed. -/
theorem C04_level5_never_succeeds (hl : 5 ≤ E.level) {evs : List (Ev δ ω)} (ht : ParseTrace E s i f evs)
    (hc : cycles evs ≠ []) (n : Nat) (o : Obj δ ω) (r : δ) : (parseSection E n s i f o).1 ≠ .ok r := by
  intro h
  have h' : parseSection E n s i f o = (.ok r, (parseSection E n s i f o).2) := Prod.ext h rfl
  have hr := (parseSection_ok h').2.2.2 evs ht
  cases hcy : cycles evs with
  | nil => exact hc hcy
  | cons p ps =>
    obtain ⟨a, b⟩ := p
    have hm : Ev.cycle a b ∈ evs := mem_cycles.mp (by rw [hcy]; simp)
    obtain ⟨x, y, rfl⟩ := List.append_of_mem hm
    obtain ⟨c1, _, h2⟩ := replay_none_prefix hr
    simp only [replay, evStep, notify, if_pos hl] at h2
    cases h2

/-- C04: when everything before the first cyclic `use` goes well, that `use` aborts the parse with ValueError
at level 5, and the data are those written before it; below level 5 it is skipped: the parse goes on as if the
option were not there, a notice apart. -/
theorem C04_cycle_event (hs : s ≠ []) {a b : List (Ev δ ω)} {x y : Str} (ht : ParseTrace E s i f (a ++ .cycle x y :: b))
    (hn : E.cfg.sectionNames.length + 3 ≤ n)
    (hd : i = true → E.cfg.hasSection E.defaultName = true → s = E.defaultName ∨ ¬ Reaches E E.defaultName s)
    {c : Core δ ω} (ha : replay E s a { o.toCore with shared := E.emptyShared, checked := setAdd o.checked s } = (none, c)) :
    (5 ≤ E.level → (parseSection E n s i f o).1 = .exc .valueError ∧ (parseSection E n s i f o).2.toCore = c) ∧
    (E.level < 5 → ∀ l, (if 0 < E.level ∧ E.silentWarnings = false then
          l = [(⟨.warning, .valueError, E.compactWarnings⟩ : Notice)] else l = []) →
        (∀ e, (parseSection E n s i f o).1 = .exc e ↔ (replay E s b { c with out := c.out ++ l }).1 = some e) ∧
        (parseSection E n s i f o).2.toCore = (replay E s b { c with out := c.out ++ l }).2) := by
  obtain ⟨h1, h2, _⟩ := parseSection_replay (o := o) hs ht hn hd
  rw [replay_append, show replay E s a (startCore E s o.toCore) = (none, c) from ha] at h1 h2
  dsimp only at h1 h2
  constructor
  · intro hl
    simp only [replay, evStep, notify, if_pos hl] at h1 h2
    exact ⟨h1, h2⟩
  · intro hl l hcond
    have hstep : evStep E s (.cycle x y) c = (none, { c with out := c.out ++ l }) := by
      simp only [evStep, notify, if_neg (by omega : ¬ 5 ≤ E.level)]
      split at hcond
      · rename_i hx; rw [if_pos hx, hcond]
      · rename_i hx; rw [if_neg hx, hcond, List.append_nil]
    simp only [replay, hstep] at h1 h2
    refine ⟨fun e => ?_, h2⟩
    rw [h1]
    cases (replay E s b { c with out := c.out ++ l }).1 with
    | none => simp [outcomeV]
    | some e' => simp [outcomeV]

/-- The example: A uses B uses C uses A. One notice at level 4, none at level 0, ValueError at level 5. -/
example : Example.oA.out = [⟨.warning, .valueError, false⟩] ∧
    (parseSection { Example.env with level := 0 } 12 py!"A" true true Example.o0).2.out = [] ∧
    (parseSection Example.env5 12 py!"A" true true Example.o0).1 = .exc .valueError := ⟨rfl, rfl, rfl⟩

/-- and its unrolling does meet a cycle -/
example : ∃ evs, ParseTrace Example.env py!"A" true true evs ∧ cycles evs ≠ [] := by
  obtain ⟨evs, ht⟩ := parseTrace_total Example.env py!"A" true true
  refine ⟨evs, ht, fun h0 => ?_⟩
  obtain ⟨l, h1, h2, _⟩ := C04_one_notice_per_cycle (E := Example.env) (n := 12) (o := Example.o0) (o' := Example.oA)
    (r := [py!"init", py!"A/foo", py!"final"]) (Prod.ext Example.parse_A rfl) ht
  have h3 := h2 ⟨by decide, rfl⟩
  rw [h0, Example.out_A] at *
  have : l = [⟨.warning, .valueError, false⟩] := h1.symm
  subst this
  cases h3

end CPE.Props
