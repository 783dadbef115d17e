import Verif.Proofs.Obj
import Verif.Model.Rebind
import Verif.Spec.Rebind
/-
The parser that keeps a reference per section follows the specification, and is the parser of `Verif.Model.Parser` if
no handler binds another dict.
-/
namespace CPE.Rb
open CPE CPE.Spec CPE.Rb.Spec
variable {δ ω : Type}

/-- From states with core `c` on, `m` ends as `r` says in a state with core `c'`. -/
def Hits {α : Type} (path : List Str) (m : M (World δ ω) α) (a : α) (c : Core δ ω) (r : Option PyExc) (c' : Core δ ω) : Prop :=
  ∀ w : World δ ω, (∀ x, x ∈ w.processed ↔ x ∈ path) → w.toCore = c →
    (m w).1 = outcomeV a r ∧ (m w).2.toCore = c' ∧ (r = none → ∀ x, x ∈ (m w).2.processed ↔ x ∈ path)

section
variable {E : Env δ ω} {root : Str} {path : List Str}

theorem Hits.of_sim {α : Type} {m : M (World δ ω) α} {a : α} {evs : List (Ev δ ω)} (h : Sim E root path m a evs)
    {c c' : Core δ ω} {r : Option PyExc} (he : Events E root evs c r c') : Hits path m a c r c' := by
  rintro w hw rfl
  obtain ⟨h1, h2, h3⟩ := h w hw
  unfold Events at he
  rw [he] at h1 h2
  refine ⟨h1, h2, ?_⟩
  rintro rfl
  exact h3 h1

theorem Hits.bind {α β : Type} {m : M (World δ ω) α} {a : α} {f : α → M (World δ ω) β} {b : β} {c c1 c' : Core δ ω}
    {r : Option PyExc} (h : Hits path m a c none c1) (h' : Hits path (f a) b c1 r c') : Hits path (m >>= f) b c r c' := by
  intro w hw hc
  obtain ⟨h1, h2, h3⟩ := h w hw hc
  rw [M.bind_def]
  cases hm : m w with
  | mk o w1 =>
    rw [hm] at h1 h2 h3
    dsimp only at h1 h2 h3
    subst h1
    exact h' w1 (h3 rfl) h2

theorem Hits.raises {α β : Type} {m : M (World δ ω) α} {a : α} {f : α → M (World δ ω) β} {b : β} {c c' : Core δ ω}
    {e : PyExc} (h : Hits path m a c (some e) c') : Hits path (m >>= f) b c (some e) c' := by
  intro w hw hc
  obtain ⟨h1, h2, h3⟩ := h w hw hc
  rw [M.bind_def]
  cases hm : m w with
  | mk o w1 =>
    rw [hm] at h1 h2
    dsimp only at h1 h2
    subst h1
    exact ⟨rfl, h2, fun h => by cases h⟩

theorem Hits.pure' {α : Type} (a : α) (c : Core δ ω) : Hits path (pure a : M (World δ ω) α) a c none c :=
  fun _ hw hc => ⟨rfl, hc, fun _ => hw⟩

theorem Hits.log (l : LogEntry) (c : Core δ ω) : Hits path (logAdd E l) () c none c :=
  .of_sim (root := []) (Sim.log l) rfl

theorem Hits.opHandler {hc : HCall} {body : M (World δ ω) Ret} {c c' : Core δ ω} {r : Option PyExc}
    (h : Hits path body (.int 0) c r c') : Hits path (operationHandler E hc body) () c r c' := by
  unfold operationHandler
  refine (Hits.log _ c).bind ?_
  cases r with
  | none => exact h.bind ((Hits.log _ c').bind (Hits.pure' () c'))
  | some e => exact h.raises

theorem Hits.aside {m : M (World δ ω) Unit} {p : Work δ ω} {c c' : Core δ ω} {r : Option PyExc}
    (h : ∀ r c', p c r c' → Hits path m () c r c') (ha : Aside p c r c') : Hits path (Rb.aside m) () c r c' := by
  intro w hw hc
  unfold Rb.aside
  rcases ha with ⟨c1, rfl, hp, rfl⟩ | ⟨e, rfl, hp⟩
  · obtain ⟨h1, h2, h3⟩ := h _ _ hp w hw hc
    cases hm : m w with
    | mk o w1 =>
      rw [hm] at h1 h2 h3
      dsimp only at h1 h2 h3
      subst h1
      refine ⟨rfl, ?_, h3⟩
      subst h2 hc
      rfl
  · obtain ⟨h1, h2, h3⟩ := h _ _ hp w hw hc
    cases hm : m w with
    | mk o w1 =>
      rw [hm] at h1 h2 h3
      dsimp only at h1 h2 h3
      subst h1
      exact ⟨rfl, h2, h3⟩

theorem Hits.then {α : Type} {m : M (World δ ω) Unit} {f : Unit → M (World δ ω) α} {a : α} {p q : Work δ ω} {c c' : Core δ ω}
    {r : Option PyExc} (hp : ∀ c r c', p c r c' → Hits path m () c r c')
    (hq : ∀ c r c', q c r c' → Hits path (f ()) a c r c') (h : Then p q c r c') : Hits path (m >>= f) a c r c' := by
  rcases h with ⟨c1, h1, h2⟩ | ⟨e, rfl, h1⟩
  · exact (hp _ _ _ h1).bind (hq _ _ _ h2)
  · exact (hp _ _ _ h1).raises

/-- An option that uses a section. -/
theorem Hits.link {s k t : Str} {c c' : Core δ ω} {r : Option PyExc} (rec : Str → M (World δ ω) Unit)
    (h : meaning E root s k = .link t) (hp : t ∉ path) (hr : Hits path (rec t) () c r c') :
    Hits path (processOption E rec root s k) () c r c' := by
  unfold processOption
  unfold meaning at h
  cases hv : E.cfg.value s k with
  | error e => rw [hv] at h; cases h
  | ok v =>
    rw [hv] at h
    simp only at h
    rw [M.ofExcept_ok_bind]
    dsimp only
    generalize v.map (fun x => stripQuotes (strip x)) = v' at h ⊢
    refine (Hits.log _ c).bind ?_
    simp only [tokenizeOptionKey, strip_idem]
    cases hs : shlexSplit (strip k) with
    | error e => rw [hs] at h; cases h
    | ok toks =>
      rw [hs] at h
      cases toks with
      | nil => cases h
      | cons tk ps =>
        simp only at h
        show Hits path (if matchesOp tk = false then _ else _) () c r c'
        by_cases hop : OpWord tk
        · have hm : ¬ (matchesOp tk = false) := by
            rw [(opWord_iff_matches tk).mp hop]; simp
          rw [if_pos hop] at h
          rw [if_neg hm]
          refine (Hits.log _ c).bind ?_
          simp only [locateHandler, opOfToken_eq, opName_idem, publicMethod_eq]
          generalize opName tk = op at h
          cases hp' : publicHandler E op with
          | some g =>
            cases hq : E.priv op with
            | none => rw [hp', hq] at h; cases h
            | some i => rw [hp', hq] at h; cases h
          | none =>
            cases hq : E.priv op with
            | none => rw [hp', hq] at h; cases h
            | some i =>
              rw [hp', hq] at h
              cases i with
              | user g => cases h
              | use =>
                cases ps with
                | nil => cases h
                | cons a as =>
                  cases h
                  refine Hits.opHandler (E := E) (body := useBody E rec _) ?_
                  unfold useBody
                  intro w hw hc
                  simp only [M.read_bind]
                  rw [if_neg (fun hx => hp ((hw t).mp hx))]
                  have : Hits path (rec t >>= fun _ => pure (Ret.int 0)) (Ret.int 0) c r c' := by
                    cases r with
                    | none => exact hr.bind (Hits.pure' _ _)
                    | some e => exact hr.raises
                  exact this w hw hc
        · rw [if_neg hop] at h; cases h

/-- The hook at the end of a section. -/
def final (E : Env δ ω) (root s : Str) (fin : Bool) : Work δ ω :=
  if (fin && decide (s = root)) = true then Aside (Events E root [.call E.hookFinal (hookCall root py!"handler_finalize")]) else Skip

theorem final_hits {s : Str} {fin : Bool} {c c' : Core δ ω} {r : Option PyExc} (h : final E root s fin c r c') :
    Hits path (if fin && s = root then aside (callHandler E E.hookFinal
        { sectionName := s, sectionRoot := root, handlerName := py!"handler_finalize" }) else pure () : M (World δ ω) Unit)
      () c r c' := by
  unfold final at h
  by_cases hf : (fin && decide (s = root)) = true
  · rw [if_pos hf] at h ⊢
    have : s = root := by simp at hf; exact hf.2
    subst this
    exact Hits.aside (fun _ _ he => .of_sim (Sim.call _ _) he) h
  · rw [if_neg hf] at h ⊢
    obtain ⟨rfl, rfl⟩ := h
    exact Hits.pure' _ _

theorem hits_main {s : Str} {keys : List Str} {fin : Bool} {c c1 c' : Core δ ω} {r : Option PyExc}
    (rec : Str → M (World δ ω) Unit) (ho : E.cfg.optionNames s = some keys) (hp : s ∉ path)
    (hv : Events E root [.visit s] c none c1)
    (h : Hits (s :: path) (do
      M.forEach keys (processOption E rec root s)
      if fin && s = root then aside (callHandler E E.hookFinal
        { sectionName := s, sectionRoot := root, handlerName := py!"handler_finalize" })) () c1 r c') :
    Hits path (parseMain E rec root s fin) () c r c' := by
  unfold parseMain
  rw [ho]
  refine (Hits.log _ c).bind ?_
  rintro w hw rfl
  dsimp only
  rw [M.bind_ok (addSection_apply s w), M.modify_bind]
  generalize hw' : ({ w with
    data := if (Dict.get? w.data s).isSome then w.data else w.data ++ [(s, [])],
    processed := setAdd w.processed s } : World δ ω) = w'
  have hc : w'.toCore = c1 := by
    unfold Events at hv
    simp only [replay, evStep] at hv
    rw [← hw']
    have := (Prod.mk.inj hv).2
    rw [← this]
    by_cases hd : (Dict.get? w.data s).isSome = true
    · simp [hd]
    · simp [hd]
  have hpr : ∀ x, x ∈ w'.processed ↔ x ∈ s :: path := by
    intro x
    rw [← hw']
    simp only [mem_setAdd, List.mem_cons, hw]
  have key := h w' hpr hc
  have hsplit : ∀ (g : Unit → M (World δ ω) Unit), (do
      M.forEach keys (processOption E rec root s)
      if fin && s = root then
        aside (callHandler E E.hookFinal
          { sectionName := s, sectionRoot := root, handlerName := py!"handler_finalize" })
        g ()
      else g ()) = ((do
      M.forEach keys (processOption E rec root s)
      if fin && s = root then
        aside (callHandler E E.hookFinal
          { sectionName := s, sectionRoot := root, handlerName := py!"handler_finalize" })) >>= g) := by
    intro g
    rw [M.bind_assoc]
    congr 1
    funext _
    by_cases hf : (fin && decide (s = root)) = true
    · rw [if_pos hf, if_pos hf]
    · rw [if_neg hf, if_neg hf]; rfl
  have := hsplit (fun _ => do
    let w ← M.read
    if s ∈ w.processed then
      M.modify fun w => { w with processed := setDel w.processed s }
      logAdd E (.sectionExit s)
    else M.raise .keyError)
  rw [this, M.bind_def]
  obtain ⟨k1, k2, k3⟩ := key
  cases hm : (do
      M.forEach keys (processOption E rec root s)
      if fin && s = root then
        aside (callHandler E E.hookFinal
          { sectionName := s, sectionRoot := root, handlerName := py!"handler_finalize" }) : M (World δ ω) Unit) w' with
  | mk o w2 =>
    rw [hm] at k1 k2 k3
    cases r with
    | some e =>
      simp only [outcomeV] at k1 k2
      subst k1
      simp [outcomeV, k2]
    | none =>
      simp only [outcomeV] at k1 k2 k3
      subst k1
      have k3 := k3 trivial
      have hin : s ∈ w2.processed := (k3 s).mpr (by simp)
      simp only [M.read_bind, if_pos hin, M.modify_bind]
      unfold logAdd
      simp only [M.modify_apply, outcomeV, true_and]
      have hpath : ∀ x, x ∈ setDel w2.processed s ↔ x ∈ path := by
        intro x
        rw [mem_setDel, k3]
        simp only [List.mem_cons]
        constructor
        · rintro ⟨h1 | h1, h2⟩
          · exact absurd h1 h2
          · exact h1
        · intro h1
          exact ⟨.inr h1, fun h2 => hp (h2 ▸ h1)⟩
      split <;> exact ⟨k2, fun _ => hpath⟩

/-- What is proved by induction on the specification. -/
def HitsTask (E : Env δ ω) (root : Str) : Task → Core δ ω → Option PyExc → Core δ ω → Prop
  | .sec path s, c, r, c' => ∀ n, todo E path ≤ n → s ∉ path → (root ∈ path ∨ root = s ∨ ¬ Reaches E s root) →
      ∀ fin r' c'', (r = none ∧ final E root s fin c' r' c'' ∨ r' = r ∧ r ≠ none ∧ c'' = c') →
        Hits path (parseMain E (fun t => aside (parseR E n root t true false)) root s fin) () c r' c''
  | .opts path s keys, c, r, c' => ∀ n, todo E path + 1 ≤ n → (root ∈ path ∨ ¬ Reaches E s root) →
      (∃ names, E.cfg.optionNames s = some names ∧ ∀ k ∈ keys, k ∈ names) →
      Hits path (M.forEach keys (processOption E (fun t => aside (parseR E n root t true false)) root s)) () c r c'

/-- `_parse_section_r` for a section that is not the root of the parse. -/
theorem parseR_used {n : Nat} {t : Str} (hne : t ≠ root) :
    parseR E (n + 1) root t true false = parseMain E (fun t => aside (parseR E n root t true false)) root t false := by
  simp only [parseR, hne, decide_false, Bool.and_false, Bool.false_eq_true, if_false]

theorem used_hits {s k t : Str} {c c' : Core δ ω} {r : Option PyExc} {names : List Str} {n : Nat}
    (hm : meaning E root s k = .link t) (hp : t ∉ path) (ih : HitsTask E root (.sec path t) c r c')
    (hn : todo E path + 1 ≤ n) (hr : root ∈ path ∨ ¬ Reaches E s root) (ho : E.cfg.optionNames s = some names) (hk : k ∈ names)
    {c'' : Core δ ω} (hc : Aside (fun _ r' c1 => r' = r ∧ c1 = c') c r c'') :
    Hits path (processOption E (fun t => aside (parseR E n root t true false)) root s k) () c r c'' := by
  obtain ⟨n, rfl⟩ : ∃ m, n = m + 1 := ⟨n - 1, by omega⟩
  have hlink : Links E s t := links_of_meaning ho hk hm
  have hr' : root ∈ path ∨ ¬ Reaches E t root := by
    rcases hr with h | h
    · exact .inl h
    · exact .inr (fun hx => h (.step hlink hx))
  have hne : t ≠ root := by
    rintro rfl
    rcases hr' with h | h
    · exact hp h
    · exact h (.refl _)
  refine Hits.link _ hm hp (Hits.aside ?_ hc)
  rintro _ _ ⟨rfl, rfl⟩
  rw [parseR_used hne]
  refine ih n (by omega) hp (by rcases hr' with h | h; exact .inl h; exact .inr (.inr h)) false _ _ ?_
  unfold final
  simp only [Bool.false_and, Bool.false_eq_true, if_false, Skip]
  rename_i r1 c1
  cases r1 <;> simp

theorem hitsTask {task : Task} {c c' : Core δ ω} {r : Option PyExc} (h : Works E root task c r c') :
    HitsTask E root task c r c' := by
  induction h with
  | @missing path s c ho =>
    intro n _ _ _ fin r' c'' h
    rcases h with ⟨h, _⟩ | ⟨rfl, _, rfl⟩
    · cases h
    · unfold parseMain
      rw [ho]
      refine (Hits.log _ _).bind ?_
      intro w _ hc
      exact ⟨rfl, hc, fun h => by cases h⟩
  | @sec path s keys c c1 r c' ho hv _ ih =>
    intro n hn hs hr fin r' c'' h
    have hs' : s ∈ E.cfg.allNames := (Cfg.optionNames_isSome _ _).mp (by simp [ho])
    have hlt := todo_cons_lt hs' hs
    refine hits_main _ ho hs hv ?_
    have := ih n (by omega) (by
      rcases hr with h | h | h
      · exact .inl (by simp [h])
      · exact .inl (by simp [h])
      · exact .inr h) ⟨keys, ho, fun _ h => h⟩
    rcases h with ⟨rfl, h⟩ | ⟨rfl, h, rfl⟩
    · exact this.bind (final_hits h)
    · obtain ⟨e, rfl⟩ := Option.ne_none_iff_exists'.mp h
      exact this.raises
  | nil =>
    intro n _ _ _
    exact Hits.pure' () _
  | @option path s k ks evs c c1 r c' hm he _ ih =>
    intro n hn hr ⟨names, ho, hk⟩
    rw [M.forEach_cons]
    exact (Hits.of_sim (Sim.optionEvents _ hm) he).bind (ih n hn hr ⟨names, ho, fun k h => hk k (by simp [h])⟩)
  | @optionRaises path s k ks evs c e c' hm he =>
    intro n hn hr ⟨names, ho, hk⟩
    rw [M.forEach_cons]
    exact (Hits.of_sim (Sim.optionEvents _ hm) he).raises
  | @cycle path s k ks t c c1 r c' hm hp he _ ih =>
    intro n hn hr ⟨names, ho, hk⟩
    rw [M.forEach_cons]
    exact (Hits.of_sim (Sim.optionLink (evs := [.cycle s t]) _ hm (fun _ => rfl) (fun h => absurd hp h)) he).bind
      (ih n hn hr ⟨names, ho, fun k h => hk k (by simp [h])⟩)
  | @cycleRaises path s k ks t c e c' hm hp he =>
    intro n hn hr ⟨names, ho, hk⟩
    rw [M.forEach_cons]
    exact (Hits.of_sim (Sim.optionLink (evs := [.cycle s t]) _ hm (fun _ => rfl) (fun h => absurd hp h)) he).raises
  | @used path s k ks t c c1 r c' hm hp _ _ ih1 ih2 =>
    intro n hn hr ⟨names, ho, hk⟩
    rw [M.forEach_cons]
    exact (used_hits hm hp ih1 hn hr ho (hk k (by simp)) (.inl ⟨c1, rfl, ⟨rfl, rfl⟩, rfl⟩)).bind
      (ih2 n hn hr ⟨names, ho, fun k h => hk k (by simp [h])⟩)
  | @usedRaises path s k ks t c e c' hm hp _ ih =>
    intro n hn hr ⟨names, ho, hk⟩
    rw [M.forEach_cons]
    exact (used_hits hm hp ih hn hr ho (hk k (by simp)) (.inr ⟨e, rfl, rfl, rfl⟩)).raises

/-- `_parse_section_r(root)` does what the specification says. -/
theorem hitsParse {init fin : Bool} {n : Nat} (hn : E.cfg.sectionNames.length + 3 ≤ n)
    (hd : init = true → E.cfg.hasSection E.defaultName = true → root = E.defaultName ∨ ¬ Reaches E E.defaultName root)
    {c c' : Core δ ω} {r : Option PyExc} (h : Parses E root init fin c r c') :
    Hits [] (parseR E n root root init fin) () c r c' := by
  obtain ⟨n, rfl⟩ : ∃ m, n = m + 2 := ⟨n - 2, by omega⟩
  have hR : parseR E (n + 2) root root init fin = ((if init = true then
        aside (callHandler E E.hookInit
          { sectionName := root, sectionRoot := root, handlerName := py!"handler_initialize" }) else pure ()) >>= fun _ =>
      (if init = true ∧ E.cfg.hasSection E.defaultName = true then
          aside (parseR E (n + 1) root E.defaultName false false) else pure ()) >>= fun _ =>
      parseMain E (fun t => aside (parseR E (n + 1) root t true false)) root root fin) := by
    rw [parseR]
    cases init with
    | false => simp only [Bool.false_and, Bool.false_eq_true, if_false, false_and]; rfl
    | true =>
      by_cases hh : E.cfg.hasSection E.defaultName = true
      · simp only [decide_true, Bool.and_true, if_true, hh, and_self]
      · simp only [decide_true, Bool.and_true, if_true, hh]; rfl
  rw [hR]
  refine Hits.then ?_ ?_ h
  · intro c r c' h
    by_cases hi : init = true
    · rw [if_pos hi] at h ⊢
      exact Hits.aside (fun _ _ he => .of_sim (Sim.call _ _) he) h
    · rw [if_neg hi] at h ⊢
      obtain ⟨rfl, rfl⟩ := h
      exact Hits.pure' _ _
  intro c r c' h
  refine Hits.then ?_ ?_ h
  · intro c r c' h
    by_cases hi : init = true ∧ E.cfg.hasSection E.defaultName = true
    · rw [if_pos hi] at h ⊢
      refine Hits.aside (fun r c' he => ?_) h
      have hPD : parseR E (n + 1) root E.defaultName false false =
          parseMain E (fun t => aside (parseR E n root t true false)) root E.defaultName false := by
        simp [parseR]
      rw [hPD]
      refine hitsTask he n (by rw [todo_nil]; omega) (by simp)
        (by rcases hd hi.1 hi.2 with h | h; exact .inr (.inl h); exact .inr (.inr h)) false _ _ ?_
      unfold final
      simp only [Bool.false_and, Bool.false_eq_true, if_false, Skip]
      cases r <;> simp
    · rw [if_neg hi] at h ⊢
      obtain ⟨rfl, rfl⟩ := h
      exact Hits.pure' _ _
  intro c r c' h
  rcases h with ⟨c1, h1, h2⟩ | ⟨e, rfl, h1⟩
  · refine hitsTask h1 (n + 1) (by rw [todo_nil]; omega) (by simp) (.inr (.inl rfl)) fin _ _ (.inl ⟨rfl, ?_⟩)
    unfold final
    simpa using h2
  · exact hitsTask h1 (n + 1) (by rw [todo_nil]; omega) (by simp) (.inr (.inl rfl)) fin _ _ (.inr ⟨rfl, by simp, rfl⟩)

/-! ### There is always something the specification says -/

theorem events_total (root : Str) (evs : List (Ev δ ω)) (c : Core δ ω) : ∃ r c', Events E root evs c r c' :=
  ⟨_, _, rfl⟩

theorem works_opts_total (s : Str) (keys : List Str) (c : Core δ ω)
    (h : ∀ t, t ∉ path → ∀ c, ∃ r c', Works E root (.sec path t) c r c') :
    ∃ r c', Works E root (.opts path s keys) c r c' := by
  induction keys generalizing c with
  | nil => exact ⟨_, _, .nil⟩
  | cons k ks ih =>
    cases hm : meaning E root s k with
    | events evs =>
      obtain ⟨r, c1, h1⟩ := events_total (E := E) root evs c
      cases r with
      | none => obtain ⟨r, c', h2⟩ := ih c1; exact ⟨_, _, .option hm h1 h2⟩
      | some e => exact ⟨_, _, .optionRaises hm h1⟩
    | link t =>
      by_cases ht : t ∈ path
      · obtain ⟨r, c1, h1⟩ := events_total (E := E) root [.cycle s t] c
        cases r with
        | none => obtain ⟨r, c', h2⟩ := ih c1; exact ⟨_, _, .cycle hm ht h1 h2⟩
        | some e => exact ⟨_, _, .cycleRaises hm ht h1⟩
      · obtain ⟨r, c1, h1⟩ := h t ht c
        cases r with
        | none => obtain ⟨r, c', h2⟩ := ih { c1 with shared := c.shared }; exact ⟨_, _, .used hm ht h1 h2⟩
        | some e => exact ⟨_, _, .usedRaises hm ht h1⟩

theorem works_total (path : List Str) (s : Str) (hp : s ∉ path) (c : Core δ ω) :
    ∃ r c', Works E root (.sec path s) c r c' := by
  generalize hn : todo E path = n
  induction n using Nat.strongRecOn generalizing path s c with
  | _ n ih =>
    cases ho : E.cfg.optionNames s with
    | none => exact ⟨_, _, .missing ho⟩
    | some keys =>
      have hs : s ∈ E.cfg.allNames := (Cfg.optionNames_isSome _ _).mp (by simp [ho])
      have hlt := todo_cons_lt hs hp
      obtain ⟨r, c', h⟩ := works_opts_total (E := E) (root := root) s keys (replay E root [.visit s] c).2
        (fun t ht c => ih (todo E (s :: path)) (by omega) (s :: path) t ht c rfl)
      exact ⟨_, _, .sec ho rfl h⟩

theorem then_total {p q : Work δ ω} (hp : ∀ c, ∃ r c', p c r c') (hq : ∀ c, ∃ r c', q c r c') (c : Core δ ω) :
    ∃ r c', Then p q c r c' := by
  obtain ⟨r, c1, h1⟩ := hp c
  cases r with
  | none => obtain ⟨r, c', h2⟩ := hq c1; exact ⟨_, _, .inl ⟨_, h1, h2⟩⟩
  | some e => exact ⟨_, _, .inr ⟨_, rfl, h1⟩⟩

theorem aside_total {p : Work δ ω} (hp : ∀ c, ∃ r c', p c r c') (c : Core δ ω) : ∃ r c', Aside p c r c' := by
  obtain ⟨r, c1, h1⟩ := hp c
  cases r with
  | none => exact ⟨_, _, .inl ⟨_, rfl, h1, rfl⟩⟩
  | some e => exact ⟨_, _, .inr ⟨_, rfl, h1⟩⟩

theorem skip_total (c : Core δ ω) : ∃ r c', (Skip : Work δ ω) c r c' := ⟨_, _, rfl, rfl⟩

theorem parses_total (E : Env δ ω) (root : Str) (init fin : Bool) (c : Core δ ω) : ∃ r c', Parses E root init fin c r c' := by
  unfold Parses
  refine then_total (fun c => ?_) (fun c => then_total (fun c => ?_) (fun c => then_total (fun c => ?_) (fun c => ?_) c) c) c
  · split
    · exact aside_total (events_total _ _) c
    · exact skip_total c
  · split
    · exact aside_total (works_total _ _ (by simp)) c
    · exact skip_total c
  · exact works_total _ _ (by simp) c
  · split
    · exact aside_total (events_total _ _) c
    · exact skip_total c

theorem parseSection_nil (E : Env δ ω) (n : Nat) (i f : Bool) (o : Obj δ ω) :
    parseSection E n [] i f o = (.exc .valueError, { o with log := [] }) := rfl

theorem parseSection_apply (E : Env δ ω) (n : Nat) {s : Str} (hs : s ≠ []) (i f : Bool) (o : Obj δ ω) :
    parseSection E n s i f o =
      match parseR E n s s i f { toCore := startCore E s o.toCore, processed := [], log := [] } with
      | (.ok _, w') => (.ok w'.shared, { toWorld := w', lastResult := some w'.shared })
      | (.exc e, w') => (.exc e, { toWorld := w', lastResult := o.lastResult })
      | (.diverge, w') => (.diverge, { toWorld := w', lastResult := o.lastResult }) := by
  unfold parseSection
  rw [M.modify_bind, if_neg hs, M.bind_def, liftW_apply]
  unfold parseRoot
  rw [M.modify_bind, M.bind_def]
  simp only [startCore]
  generalize parseR E n s s i f _ = x
  obtain ⟨r, w'⟩ := x
  cases r <;> rfl

/-! ### Handlers that bind no other dict -/

/-- `m` leaves the reference alone. -/
def Keeping {α : Type} (m : M (World δ ω) α) : Prop := ∀ w, (m w).2.shared = w.shared

theorem Keeping.bind {α β : Type} {m : M (World δ ω) α} {f : α → M (World δ ω) β} (h : Keeping m)
    (hf : ∀ w a w', m w = (.ok a, w') → Keeping (f a)) : Keeping (m >>= f) := by
  intro w
  have h1 := h w
  rw [M.bind_def]
  cases hm : m w with
  | mk o w' =>
    rw [hm] at h1
    cases o with
    | ok a => exact (hf w a w' hm w').trans h1
    | exc e => exact h1
    | diverge => exact h1

theorem Keeping.pure' {α : Type} (a : α) : Keeping (pure a : M (World δ ω) α) := fun _ => rfl
theorem Keeping.raise {α : Type} (e : PyExc) : Keeping (M.raise e : M (World δ ω) α) := fun _ => rfl

theorem Keeping.ofExcept {α : Type} (x : Except PyExc α) : Keeping (M.ofExcept x : M (World δ ω) α) := by
  cases x <;> exact fun _ => rfl

theorem Keeping.log (l : LogEntry) : Keeping (logAdd E l) := by
  intro w
  unfold logAdd
  rw [M.modify_apply]
  split <;> rfl

theorem Keeping.event (ev : Event) (e : PyExc) : Keeping (ecEvent E ev e) := fun _ => rfl

theorem Keeping.check (r : Ret) : Keeping (checkRval E r) := by
  unfold checkRval
  cases r with
  | notInt => exact .raise _
  | int i =>
    simp only
    split
    · exact .pure' ()
    · split <;> exact .event _ _

theorem Keeping.op (c : HCall) {m : M (World δ ω) Ret} (h : Keeping m) : Keeping (operationHandler E c m) :=
  (Keeping.log _).bind fun _ _ _ _ => h.bind fun _ _ _ _ => (Keeping.log _).bind fun _ _ _ _ => .check _

theorem Keeping.call {h : Handler δ ω} (hk : Keeps h) (c : HCall) : Keeping (callHandler E h c) := by
  have hb : Keeping (runHandlerBody h c) := by
    intro w
    rw [runHandlerBody_world]
    exact hk c w.shared w.self
  unfold callHandler
  split
  · exact .op _ hb
  · exact hb.bind fun _ _ _ _ => .pure' ()

theorem Keeping.generic (s k : Str) (v : Option Str) : Keeping (launchGeneric E root s k v) := by
  unfold launchGeneric
  refine Keeping.bind ?_ fun _ _ _ _ => .op _ (.pure' _)
  intro w
  rw [dataSet_apply]

theorem Keeping.use {rec : Str → M (World δ ω) Unit} (h : ∀ t, Keeping (rec t)) (c : HCall) : Keeping (useBody E rec c) := by
  unfold useBody
  split
  · exact .raise _
  · refine Keeping.bind (fun _ => rfl) fun _ w _ _ => ?_
    split
    · exact (Keeping.log _).bind fun _ _ _ _ => (Keeping.log _).bind fun _ _ _ _ =>
        (Keeping.event _ _).bind fun _ _ _ _ => .pure' _
    · exact (h _).bind fun _ _ _ _ => .pure' _

/-- A located method is one of the class. -/
theorem locate_user {op : Str} {w w' : World δ ω} {name : Str} {h : Handler δ ω}
    (hl : locateHandler E op w = (.ok (some (name, .user h)), w')) :
    publicMethod E (opOfToken op) = some h ∨ E.priv (opOfToken op) = some (.user h) := by
  unfold locateHandler at hl
  dsimp only at hl
  cases hp : publicMethod E (opOfToken op) with
  | some g =>
    rw [hp] at hl
    have : ∀ (m : M (World δ ω) Unit), (do m; pure (some (py!"handler_" ++ opOfToken op, Impl.user g)) :
        M (World δ ω) (Option (Str × Impl δ ω))) w = (.ok (some (name, .user h)), w') → g = h := by
      intro m hm
      rw [M.bind_def] at hm
      cases hx : m w with
      | mk o w1 =>
        rw [hx] at hm
        cases o with
        | ok a => cases hm; rfl
        | exc e => cases hm
        | diverge => cases hm
    split at hl
    · exact .inl (congrArg some (this _ hl))
    · exact .inl (congrArg some (this (pure ()) hl))
  | none =>
    rw [hp] at hl
    cases hq : E.priv (opOfToken op) with
    | none => rw [hq] at hl; simp only [Option.isSome_none, Bool.false_and, Bool.false_eq_true, if_false] at hl; cases hl
    | some i =>
      rw [hq] at hl
      simp only [Option.isSome_none, Bool.false_and, Bool.false_eq_true, if_false] at hl
      cases hl
      exact .inr rfl

theorem Keeping.locate (op : Str) : Keeping (locateHandler E op) := by
  unfold locateHandler
  dsimp only
  have tail : Keeping (match publicMethod E (opOfToken op), E.priv (opOfToken op) with
    | some h, _ => pure (some (py!"handler_" ++ opOfToken op, .user h))
    | none, some i => pure (some (py!"_handler_" ++ opOfToken op, i))
    | none, none => pure none : M (World δ ω) (Option (Str × Impl δ ω))) := by
    split <;> exact .pure' _
  split
  · exact (Keeping.event _ _).bind fun _ _ _ _ => tail
  · exact tail

theorem public_keeps (hE : AllKeep E) {op : Str} {h : Handler δ ω} (hp : publicMethod E op = some h) : Keeps h := by
  obtain ⟨h1, h2, h3, _⟩ := hE
  unfold publicMethod at hp
  split at hp
  · cases hp; exact h1
  · split at hp
    · cases hp; exact h2
    · exact h3 _ _ hp

theorem Keeping.option (hE : AllKeep E) {rec : Str → M (World δ ω) Unit} (h : ∀ t, Keeping (rec t)) (s k : Str) :
    Keeping (processOption E rec root s k) := by
  unfold processOption
  refine (Keeping.ofExcept _).bind fun _ v _ _ => (Keeping.log _).bind fun _ _ _ _ =>
    (Keeping.ofExcept _).bind fun _ toks _ _ => ?_
  cases toks with
  | nil => exact .raise _
  | cons t ps =>
    dsimp only
    split
    · exact .generic _ _ _
    · refine (Keeping.log _).bind fun _ _ _ _ => (Keeping.locate _).bind fun _ hh _ hl => ?_
      cases hh with
      | none => exact .generic _ _ _
      | some x =>
        obtain ⟨name, impl⟩ := x
        cases impl with
        | user g =>
          refine Keeping.call ?_ _
          rcases locate_user hl with h | h
          · exact public_keeps hE h
          · exact hE.2.2.2 _ _ h
        | use => exact .op _ (.use h _)

theorem Keeping.forEach {ι : Type} (xs : List ι) {f : ι → M (World δ ω) Unit} (hf : ∀ a, Keeping (f a)) :
    Keeping (M.forEach xs f) := by
  induction xs with
  | nil => exact .pure' ()
  | cons x xs ih => rw [M.forEach_cons]; exact (hf x).bind fun _ _ _ _ => ih

theorem Keeping.aside {m : M (World δ ω) Unit} (h : Keeping m) : Rb.aside m = m := by
  funext w
  have := h w
  unfold Rb.aside
  cases hm : m w with
  | mk o w' =>
    rw [hm] at this
    cases o with
    | ok a => dsimp only at this ⊢; rw [← this]
    | exc e => rfl
    | diverge => rfl

theorem Keeping.main (hE : AllKeep E) {rec : Str → M (World δ ω) Unit} (h : ∀ t, Keeping (rec t)) (s : Str) (fin : Bool) :
    Keeping (CPE.parseMain E rec root s fin) := by
  unfold CPE.parseMain
  refine (Keeping.log _).bind fun _ _ _ _ => ?_
  cases ho : E.cfg.optionNames s with
  | none => exact .raise _
  | some keys =>
    dsimp only
    refine Keeping.bind (fun w => by rw [addSection_apply]) fun _ _ _ _ => Keeping.bind (fun w => rfl) fun _ _ _ _ =>
      (Keeping.forEach keys fun k => .option hE h s k).bind fun _ _ _ _ => ?_
    have tail : Keeping (do
        let w ← M.read
        if s ∈ w.processed then
          M.modify fun w => { w with processed := setDel w.processed s }
          logAdd E (.sectionExit s)
        else M.raise .keyError : M (World δ ω) Unit) := by
      refine Keeping.bind (fun _ => rfl) fun _ w _ _ => ?_
      split
      · exact Keeping.bind (fun w => rfl) fun _ _ _ _ => .log _
      · exact .raise _
    split
    · exact (Keeping.call hE.2.1 _).bind fun _ _ _ _ => tail
    · exact tail

theorem main_eq (hE : AllKeep E) (rec : Str → M (World δ ω) Unit) (s : Str) (fin : Bool) :
    parseMain E rec root s fin = CPE.parseMain E rec root s fin := by
  unfold parseMain CPE.parseMain
  simp only [(Keeping.call hE.2.1 _).aside]
  rfl

theorem parseR_keeps (hE : AllKeep E) (n : Nat) (s : Str) (init fin : Bool) :
    parseR E n root s init fin = CPE.parseR E n root s init fin ∧ Keeping (CPE.parseR E n root s init fin) := by
  induction n generalizing s init fin with
  | zero => exact ⟨rfl, fun _ => rfl⟩
  | succ n ih =>
    have hrec : (fun t => aside (parseR E n root t true false)) = fun t => CPE.parseR E n root t true false := by
      funext t
      rw [(ih t true false).1, (ih t true false).2.aside]
    constructor
    · rw [parseR, CPE.parseR, hrec, main_eq hE, (Keeping.call hE.1 _).aside, (ih _ _ _).1, (ih _ _ _).2.aside]
    · rw [CPE.parseR]
      have hm := Keeping.main (root := root) hE (fun t => (ih t true false).2) s fin
      split
      · refine (Keeping.call hE.1 _).bind fun _ _ _ _ => ?_
        split
        · exact (ih _ _ _).2.bind fun _ _ _ _ => hm
        · exact hm
      · exact hm

/-! ### Only the options of the root section count -/

theorem event_keep {ev : Ev δ ω} (hk : ∀ h hc, ev = .call h hc → Keeps h) (c : Core δ ω) :
    (evStep E root ev c).2.shared = c.shared := by
  cases ev with
  | visit s => unfold evStep; dsimp only; split <;> rfl
  | missing s => rfl
  | store k v => rfl
  | cycle s t => exact (notify_core E _ _ _ c).2.2.1
  | ambiguous op => exact (notify_core E _ _ _ c).2.2.1
  | fail e => rfl
  | call h hc =>
    have := hk h hc rfl
    simp only [evStep]
    cases (h.run hc c.shared c.self).1 with
    | error e => exact this _ _ _
    | ok v =>
      dsimp only
      split
      · rw [(onReturn_core E v _).2.2.1]; exact this _ _ _
      · exact this _ _ _

theorem events_keep {evs : List (Ev δ ω)} (hk : ∀ h hc, .call h hc ∈ evs → Keeps h) {c c' : Core δ ω} {r : Option PyExc}
    (h : Events E root evs c r c') : c'.shared = c.shared := by
  induction evs generalizing c with
  | nil => cases h; rfl
  | cons ev evs ih =>
    have h0 := event_keep (E := E) (root := root) (ev := ev) (fun h hc he => hk h hc (by simp [he])) c
    unfold Events at h
    rw [replay] at h
    cases hs : evStep E root ev c with
    | mk r1 c1 =>
      rw [hs] at h h0
      cases r1 with
      | some e => cases h; exact h0
      | none => exact (ih (fun h hc hm => hk h hc (List.mem_cons_of_mem _ hm)) h).trans h0

/-- The handlers an option calls are those of the class. -/
theorem meaning_keeps (hE : AllKeep E) {s k : Str} {evs : List (Ev δ ω)} (hm : meaning E root s k = .events evs)
    {h : Handler δ ω} {hc : HCall} (hin : .call h hc ∈ evs) : Keeps h := by
  unfold meaning at hm
  split at hm
  · cases hm; simp at hin
  dsimp only at hm
  split at hm
  · cases hm; simp at hin
  · cases hm; simp at hin
  split at hm
  · split at hm
    · cases hm; simp at hin
    · rename_i hp _
      cases hm
      simp only [List.mem_singleton, Ev.call.injEq] at hin
      rw [hin.1]; exact public_keeps hE hp
    · rename_i hp _
      cases hm
      simp only [List.mem_cons, List.not_mem_nil, or_false, Ev.call.injEq, reduceCtorEq, false_or] at hin
      rw [hin.1]; exact public_keeps hE hp
    · rename_i hq
      cases hm
      simp only [List.mem_singleton, Ev.call.injEq] at hin
      rw [hin.1]; exact hE.2.2.2 _ _ hq
    · split at hm
      · cases hm; simp at hin
      · cases hm
  · cases hm; simp at hin

theorem unrolls_keeps (hE : AllKeep E) {task : Task} {evs : List (Ev δ ω)} (h : Unrolls E root task evs) :
    ∀ g hc, .call g hc ∈ evs → Keeps g := by
  induction h with
  | missing => intro g hc h; simp at h
  | sec _ _ ih => intro g hc h; exact ih g hc (by simpa using h)
  | nil => intro g hc h; simp at h
  | plain hm _ ih =>
    intro g hc h
    rcases List.mem_append.mp h with h | h
    · exact meaning_keeps hE hm h
    · exact ih g hc h
  | cyclic _ _ _ ih => intro g hc h; exact ih g hc (by simpa using h)
  | link _ _ _ _ ih1 ih2 =>
    intro g hc h
    rcases List.mem_append.mp h with h | h
    · exact ih1 g hc h
    · exact ih2 g hc h

theorem trace_keeps (hE : AllKeep E) {init fin : Bool} {evs : List (Ev δ ω)} (h : ParseTrace E root init fin evs) :
    ∀ g hc, .call g hc ∈ evs → Keeps g := by
  obtain ⟨h1, h2, h3⟩ := h
  intro g hc h
  simp only [List.mem_append] at h
  rcases h with ((h | h) | h) | h
  · split at h
    · simp only [List.mem_singleton, Ev.call.injEq] at h; rw [h.1]; exact hE.1
    · simp at h
  · by_cases hi : init = true ∧ E.cfg.hasSection E.defaultName = true
    · exact unrolls_keeps hE (h1 hi) g hc h
    · rw [h2 hi] at h; simp at h
  · exact unrolls_keeps hE h3 g hc h
  · split at h
    · simp only [List.mem_singleton, Ev.call.injEq] at h; rw [h.1]; exact hE.2.1
    · simp at h

theorem works_keep {task : Task} {c c' : Core δ ω} {r : Option PyExc} (h : Works E root task c r c') (hr : r = none) :
    (match task with
     | .sec _ s => OwnKeep E root s
     | .opts _ s keys => ∀ k evs h hc, k ∈ keys → meaning E root s k = .events evs → .call h hc ∈ evs → Keeps h) →
    c'.shared = c.shared := by
  induction h with
  | missing => cases hr
  | @sec path s keys c c1 r c' ho hv _ ih =>
    intro hk
    refine (ih hr fun k evs h hc hm => hk keys k evs h hc ho hm).trans ?_
    exact events_keep (E := E) (root := root) (by simp) hv
  | nil => intro _; rfl
  | @option path s k ks evs c c1 r c' hm he _ ih =>
    intro hk
    refine (ih hr fun k' evs' h hc hm' => hk k' evs' h hc (by simp [hm'])).trans ?_
    exact events_keep (fun h hc => hk k evs h hc (by simp) hm) he
  | optionRaises => cases hr
  | @cycle path s k ks t c c1 r c' hm hp he _ ih =>
    intro hk
    refine (ih hr fun k' evs' h hc hm' => hk k' evs' h hc (by simp [hm'])).trans ?_
    exact events_keep (by simp) he
  | cycleRaises => cases hr
  | @used path s k ks t c c1 r c' hm hp _ _ _ ih2 =>
    intro hk
    exact ih2 hr fun k' evs' h hc hm' => hk k' evs' h hc (by simp [hm'])
  | usedRaises => cases hr

theorem aside_keep {p : Work δ ω} {c c' : Core δ ω} (h : Aside p c none c') : c'.shared = c.shared := by
  rcases h with ⟨c1, _, _, rfl⟩ | ⟨e, h, _⟩
  · rfl
  · cases h

theorem then_keep {p q : Work δ ω} {P : δ → δ → Prop} {c c' : Core δ ω} (h : Then p q c none c')
    (hp : ∀ c c', p c none c' → c'.shared = c.shared) (hq : ∀ c c', q c none c' → P c.shared c'.shared) :
    P c.shared c'.shared := by
  rcases h with ⟨c1, h1, h2⟩ | ⟨e, h, _⟩
  · rw [← hp _ _ h1]; exact hq _ _ h2
  · cases h

theorem parses_keep {init fin : Bool} {c c' : Core δ ω} (h : Parses E root init fin c none c') (hk : OwnKeep E root root) :
    c'.shared = c.shared := by
  refine then_keep (P := fun a b => b = a) h (fun c c' h => ?_) fun c c' h => then_keep (P := fun a b => b = a) h (fun c c' h => ?_)
    fun c c' h => then_keep (P := fun a b => b = a) h (fun c c' h => ?_) fun c c' h => ?_
  · split at h
    · exact aside_keep h
    · rw [h.2]
  · split at h
    · exact aside_keep h
    · rw [h.2]
  · exact works_keep h rfl hk
  · split at h
    · exact aside_keep h
    · rw [h.2]

end
end CPE.Rb
