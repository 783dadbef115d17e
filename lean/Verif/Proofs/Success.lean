import Verif.Proofs.Unroll
/-
A successful parse never re-enters the root from the DEFAULT section.
-/
namespace CPE
open Spec
variable {δ ω : Type}

theorem outcomeV_ne_diverge {α : Type} (a : α) (o : Option PyExc) : outcomeV a o ≠ .diverge := by
  cases o <;> intro h <;> cases h

/-- An option that is a link is run by `_handler_use`. -/
theorem processOption_link_eq {E : Env δ ω} {root s k t : Str} (rec : Str → M (World δ ω) Unit)
    (h : meaning E root s k = .link t) :
    ∃ (c : HCall) (ps : List Str) (l1 l2 : LogEntry), c.params = t :: ps ∧ c.sectionName = s ∧
      processOption E rec root s k = (do logAdd E l1; logAdd E l2; operationHandler E c (useBody E rec c)) := by
  unfold processOption
  unfold meaning at h
  cases hv : E.cfg.value s k with
  | error e => rw [hv] at h; cases h
  | ok v =>
    rw [hv] at h
    simp only at h
    rw [M.ofExcept_ok_bind]
    dsimp only
    generalize v.map (fun x => stripQuotes (strip x)) = v' at h ⊢
    simp only [tokenizeOptionKey, strip_idem]
    cases hs : shlexSplit (strip k) with
    | error e => rw [hs] at h; cases h
    | ok toks =>
      rw [hs] at h
      cases toks with
      | nil => cases h
      | cons tk ps =>
        simp only at h
        by_cases hop : OpWord tk
        · have hm : ¬ (matchesOp tk = false) := by
            rw [(opWord_iff_matches tk).mp hop]; simp
          rw [if_pos hop] at h
          rw [M.ofExcept_ok_bind]
          dsimp only
          rw [if_neg hm]
          simp only [locateHandler, opOfToken_eq, opName_idem, publicMethod_eq]
          generalize opName tk = op at h
          cases hp : publicHandler E op with
          | some g =>
            cases hq : E.priv op with
            | none => rw [hp, hq] at h; cases h
            | some i => rw [hp, hq] at h; cases h
          | none =>
            cases hq : E.priv op with
            | none => rw [hp, hq] at h; cases h
            | some i =>
              rw [hp, hq] at h
              cases i with
              | user g => cases h
              | use =>
                cases ps with
                | nil => cases h
                | cons a as =>
                  cases h
                  exact ⟨{ sectionName := s, sectionRoot := root, rawKey := some (strip k), rawValue := v', op := op,
                           params := t :: as, value := v', handlerName := py!"_handler_" ++ op }, as, _, _, rfl, rfl, rfl⟩
        · rw [if_neg hop] at h; cases h

/-- `m` keeps `processed_sections` exactly. -/
def KeepsProc {α : Type} (m : M (World δ ω) α) : Prop := ∀ w, (m w).2.processed = w.processed

theorem KeepsProc.log (E : Env δ ω) (l : LogEntry) : KeepsProc (logAdd E l) := by
  intro w; unfold logAdd; simp only [M.modify_apply]; split <;> rfl

theorem KeepsProc.bind {α β : Type} {m : M (World δ ω) α} {f : α → M (World δ ω) β}
    (h : KeepsProc m) (hf : ∀ a, KeepsProc (f a)) : KeepsProc (m >>= f) := by
  intro w
  have h1 := h w
  rw [M.bind_def]
  cases hm : m w with
  | mk o w' =>
    rw [hm] at h1
    cases o with
    | ok a => simp only; rw [hf a w', ← h1]
    | exc e => exact h1
    | diverge => exact h1

theorem KeepsProc.ecEvent (E : Env δ ω) (ev : Event) (e : PyExc) : KeepsProc (ecEvent E ev e) := fun _ => rfl

theorem KeepsProc.checkRval (E : Env δ ω) (r : Ret) : KeepsProc (checkRval E r) := by
  intro w
  unfold CPE.checkRval
  cases r with
  | notInt => rfl
  | int i =>
    simp only
    split
    · rfl
    · split <;> rfl

theorem logAdd_ok (E : Env δ ω) (l : LogEntry) (w : World δ ω) :
    ∃ w', logAdd E l w = (.ok (), w') ∧ w'.toCore = w.toCore ∧ w'.processed = w.processed := by
  unfold logAdd
  simp only [M.modify_apply]
  split <;> exact ⟨_, rfl, rfl, rfl⟩

theorem bind_ok_inv {W α β : Type} {m : M W α} {f : α → M W β} {w w' : W} {b : β}
    (h : (m >>= f) w = (.ok b, w')) : ∃ a w1, m w = (.ok a, w1) ∧ f a w1 = (.ok b, w') := by
  rw [M.bind_def] at h
  cases hm : m w with
  | mk o w1 =>
    rw [hm] at h
    cases o with
    | ok a => exact ⟨a, w1, rfl, h⟩
    | exc e => cases h
    | diverge => cases h

theorem logAdd_ok_inv {E : Env δ ω} {l : LogEntry} {w w' : World δ ω} {u : Unit} (h : logAdd E l w = (.ok u, w')) :
    w'.toCore = w.toCore ∧ w'.processed = w.processed := by
  obtain ⟨w1, h1, h2, h3⟩ := logAdd_ok E l w
  rw [h1] at h; cases h; exact ⟨h2, h3⟩

/-- What a successful link option did. -/
theorem processOption_link_ok {E : Env δ ω} {root s k t : Str} {rec : Str → M (World δ ω) Unit}
    {w w' : World δ ω} (h : meaning E root s k = .link t)
    (hok : processOption E rec root s k w = (.ok (), w')) :
    (t ∈ w.processed ∧ w'.processed = w.processed) ∨
    (t ∉ w.processed ∧ ∃ w1 w2, w1.processed = w.processed ∧ rec t w1 = (.ok (), w2) ∧
      w'.processed = w2.processed) := by
  obtain ⟨c, ps, l1, l2, hc, hs, he⟩ := processOption_link_eq rec h
  rw [he] at hok
  obtain ⟨_, w1, h1, hok⟩ := bind_ok_inv hok
  obtain ⟨_, w2, h2, hok⟩ := bind_ok_inv hok
  have p1 := (logAdd_ok_inv h1).2
  have p2 := (logAdd_ok_inv h2).2
  unfold operationHandler at hok
  obtain ⟨_, w3, h3, hok⟩ := bind_ok_inv hok
  have p3 := (logAdd_ok_inv h3).2
  obtain ⟨r, w4, h4, hok⟩ := bind_ok_inv hok
  obtain ⟨_, w5, h5, hok⟩ := bind_ok_inv hok
  have p5 := (logAdd_ok_inv h5).2
  have p6 := KeepsProc.checkRval E r w5
  rw [hok] at p6
  simp only at p6
  have pin : w3.processed = w.processed := by rw [p3, p2, p1]
  have pout : w'.processed = w4.processed := by rw [p6, p5]
  unfold useBody at h4
  rw [hc] at h4
  simp only [M.read_bind] at h4
  by_cases ht : t ∈ w.processed
  · left
    refine ⟨ht, ?_⟩
    rw [← pin] at ht
    rw [if_pos ht] at h4
    obtain ⟨_, w6, h6, h4⟩ := bind_ok_inv h4
    obtain ⟨_, w7, h7, h4⟩ := bind_ok_inv h4
    obtain ⟨_, w8, h8, h4⟩ := bind_ok_inv h4
    cases h4
    have := KeepsProc.ecEvent E .warning .valueError w7
    rw [h8] at this
    rw [pout, this, (logAdd_ok_inv h7).2, (logAdd_ok_inv h6).2, pin]
  · right
    refine ⟨ht, ?_⟩
    rw [← pin] at ht
    rw [if_neg ht] at h4
    obtain ⟨_, w6, h6, h4⟩ := bind_ok_inv h4
    cases h4
    exact ⟨w3, w4, pin, h6, pout⟩

/-- A successful plain option leaves `processed_sections` as it was. -/
theorem processOption_events_ok {E : Env δ ω} {root s k : Str} {rec : Str → M (World δ ω) Unit}
    {w w' : World δ ω} {evs : List (Ev δ ω)} (h : meaning E root s k = .events evs)
    (hok : processOption E rec root s k w = (.ok (), w')) :
    ∀ x, x ∈ w'.processed ↔ x ∈ w.processed := by
  have := (Sim.optionEvents (path := w.processed) rec h w (fun _ => Iff.rfl)).2.2
  rw [hok] at this
  exact this rfl

theorem callHandler_ok_proc {E : Env δ ω} {h : Handler δ ω} {c : HCall} {w w' : World δ ω}
    (hok : callHandler E h c w = (.ok (), w')) : ∀ x, x ∈ w'.processed ↔ x ∈ w.processed := by
  have := (Sim.call (E := E) (root := []) (path := w.processed) h c w (fun _ => Iff.rfl)).2.2
  rw [hok] at this
  exact this rfl

/-- Inversion of a successful section. -/
theorem parseMain_ok {E : Env δ ω} {rec : Str → M (World δ ω) Unit} {root s : Str} {fin : Bool} {w w' : World δ ω}
    (hok : parseMain E rec root s fin w = (.ok (), w')) :
    ∃ keys w1 w2, E.cfg.optionNames s = some keys ∧
      (∀ x, x ∈ w1.processed ↔ x = s ∨ x ∈ w.processed) ∧
      M.forEach keys (processOption E rec root s) w1 = (.ok (), w2) ∧ s ∈ w2.processed ∧
      ∀ x, x ∈ w'.processed ↔ x ∈ w2.processed ∧ x ≠ s := by
  unfold parseMain at hok
  obtain ⟨_, wa, ha, hok⟩ := bind_ok_inv hok
  have pa := (logAdd_ok_inv ha).2
  cases ho : E.cfg.optionNames s with
  | none => rw [ho] at hok; cases hok
  | some keys =>
    rw [ho] at hok
    dsimp only at hok
    rw [M.bind_ok (addSection_apply s wa), M.modify_bind] at hok
    obtain ⟨_, w2, h2, hok⟩ := bind_ok_inv hok
    refine ⟨keys, _, w2, rfl, ?_, h2, ?_⟩
    · intro x
      simp only [mem_setAdd, pa]
    · -- the hook, if any, keeps processed
      have tail : ∀ w3 : World δ ω, (do
          let w ← M.read
          if s ∈ w.processed then
            M.modify fun w => { w with processed := setDel w.processed s }
            logAdd E (.sectionExit s)
          else M.raise .keyError : M (World δ ω) Unit) w3 = (.ok (), w') →
          s ∈ w3.processed ∧ ∀ x, x ∈ w'.processed ↔ x ∈ w3.processed ∧ x ≠ s := by
        intro w3 h3
        rw [M.read_bind] at h3
        by_cases hs : s ∈ w3.processed
        · rw [if_pos hs, M.modify_bind] at h3
          refine ⟨hs, fun x => ?_⟩
          rw [(logAdd_ok_inv h3).2]
          simp only [mem_setDel]
        · rw [if_neg hs] at h3; cases h3
      by_cases hf : (fin && decide (s = root)) = true
      · rw [if_pos hf] at hok
        obtain ⟨_, w3, h3, hok⟩ := bind_ok_inv hok
        have := callHandler_ok_proc h3
        obtain ⟨t1, t2⟩ := tail w3 hok
        exact ⟨(this s).mp t1, fun x => by rw [t2, this]⟩
      · rw [if_neg hf] at hok
        exact tail w2 hok

/-- Lemma A: a successful section removes itself and adds nothing. -/
theorem forEach_proc_subset {E : Env δ ω} {rec : Str → M (World δ ω) Unit} {root s : Str}
    (hrec : ∀ t w w', rec t w = (.ok (), w') → ∀ x, x ∈ w'.processed → x ∈ w.processed)
    (keys : List Str) (w w' : World δ ω)
    (hok : M.forEach keys (processOption E rec root s) w = (.ok (), w')) :
    ∀ x, x ∈ w'.processed → x ∈ w.processed := by
  induction keys generalizing w with
  | nil => cases hok; exact fun _ h => h
  | cons k ks ih =>
    rw [M.forEach_cons] at hok
    obtain ⟨_, w1, h1, hok⟩ := bind_ok_inv hok
    intro x hx
    have hx1 := ih w1 hok x hx
    cases hm : meaning E root s k with
    | events evs => exact (processOption_events_ok hm h1 x).mp hx1
    | link t =>
      rcases processOption_link_ok hm h1 with ⟨_, hp⟩ | ⟨_, wa, wb, pa, hr, pb⟩
      · rw [hp] at hx1; exact hx1
      · rw [pb] at hx1
        rw [← pa]
        exact hrec t wa wb hr x hx1

theorem parseMain_proc_subset {E : Env δ ω} {rec : Str → M (World δ ω) Unit} {root s : Str} {fin : Bool}
    (hrec : ∀ t w w', rec t w = (.ok (), w') → ∀ x, x ∈ w'.processed → x ∈ w.processed)
    {w w' : World δ ω} (hok : parseMain E rec root s fin w = (.ok (), w')) :
    s ∉ w'.processed ∧ ∀ x, x ∈ w'.processed → x ∈ w.processed := by
  obtain ⟨keys, w1, w2, _, h1, h2, _, h4⟩ := parseMain_ok hok
  have := forEach_proc_subset hrec keys w1 w2 h2
  refine ⟨fun h => ((h4 s).mp h).2 rfl, fun x hx => ?_⟩
  obtain ⟨a, b⟩ := (h4 x).mp hx
  rcases (h1 x).mp (this x a) with h | h
  · exact absurd h b
  · exact h

/-- The initialization phase. -/
theorem parseR_succ_init (E : Env δ ω) (n : Nat) (root : Str) (fin : Bool) :
    parseR E (n + 1) root root true fin = (do
      callHandler E E.hookInit
        { sectionName := root, sectionRoot := root, handlerName := py!"handler_initialize" }
      if E.cfg.hasSection E.defaultName then
        parseR E n root E.defaultName false false
      parseMain E (fun t => parseR E n root t true false) root root fin) := by
  simp [parseR]

theorem parseR_succ_other {E : Env δ ω} {n : Nat} {root s : Str} {init fin : Bool}
    (h : init = false ∨ s ≠ root) :
    parseR E (n + 1) root s init fin =
      parseMain E (fun t => parseR E n root t true false) root s fin := by
  rcases h with h | h
  · simp [parseR, h]
  · simp [parseR, h]

theorem parseR_proc_subset {E : Env δ ω} (n : Nat) {root s : Str} {init fin : Bool} {w w' : World δ ω}
    (hok : parseR E n root s init fin w = (.ok (), w')) :
    s ∉ w'.processed ∧ ∀ x, x ∈ w'.processed → x ∈ w.processed := by
  induction n generalizing s init fin w w' with
  | zero => cases hok
  | succ n ih =>
    by_cases hi : init = false ∨ s ≠ root
    · rw [parseR_succ_other hi] at hok
      exact parseMain_proc_subset (fun t w w' h => (ih h).2) hok
    · have hi : init = true ∧ s = root := by simpa using hi
      obtain ⟨rfl, rfl⟩ := hi
      rw [parseR_succ_init] at hok
      obtain ⟨_, w1, h1, hok⟩ := bind_ok_inv hok
      have p1 := callHandler_ok_proc h1
      by_cases hd : E.cfg.hasSection E.defaultName = true
      · rw [if_pos hd] at hok
        obtain ⟨_, w2, h2, hok⟩ := bind_ok_inv hok
        have a := parseMain_proc_subset (fun t w w' h => (ih h).2) hok
        exact ⟨a.1, fun x hx => (p1 x).mp ((ih h2).2 x (a.2 x hx))⟩
      · rw [if_neg hd] at hok
        have a := parseMain_proc_subset (fun t w w' h => (ih h).2) hok
        exact ⟨a.1, fun x hx => (p1 x).mp (a.2 x hx)⟩

/-- Lemma B: entering the root through `use` loses DEFAULT. -/
theorem parseR_root_loses_default {E : Env δ ω} (n : Nat) {root : Str} {fin : Bool} {w w' : World δ ω}
    (hd : E.cfg.hasSection E.defaultName = true)
    (hok : parseR E n root root true fin w = (.ok (), w')) : E.defaultName ∉ w'.processed := by
  cases n with
  | zero => cases hok
  | succ n =>
    rw [parseR_succ_init] at hok
    obtain ⟨_, w1, h1, hok⟩ := bind_ok_inv hok
    rw [if_pos hd] at hok
    obtain ⟨_, w2, h2, hok⟩ := bind_ok_inv hok
    have a := (parseR_proc_subset n h2).1
    have b := parseMain_proc_subset (fun t w w' h => (parseR_proc_subset n h).2) hok
    exact fun h => a (b.2 _ h)

/-- A walk that avoids a set of sections. -/
inductive ReachAvoid (E : Env δ ω) (path : List Str) : Str → Str → Prop
  | refl {s} : s ∉ path → ReachAvoid E path s s
  | step {s t u} : s ∉ path → Links E s t → ReachAvoid E path t u → ReachAvoid E path s u

theorem ReachAvoid.head {E : Env δ ω} {path : List Str} {s t : Str} (h : ReachAvoid E path s t) : s ∉ path := by
  cases h <;> assumption

theorem reachAvoid_nil {E : Env δ ω} {s t : Str} : ReachAvoid E [] s t ↔ Reaches E s t := by
  constructor
  · intro h
    induction h with
    | refl _ => exact .refl _
    | step _ hl _ ih => exact .step hl ih
  · intro h
    induction h with
    | refl _ => exact .refl (by simp)
    | step hl _ ih => exact .step (by simp) hl ih

/-- Cutting a walk at its last visit of `s`. -/
theorem ReachAvoid.cut {E : Env δ ω} {path : List Str} {a t : Str} (s : Str) (h : ReachAvoid E path a t) :
    ReachAvoid E (s :: path) a t ∨ t = s ∨ ∃ u, Links E s u ∧ ReachAvoid E (s :: path) u t := by
  induction h with
  | @refl a ha =>
    by_cases h : a = s
    · exact .inr (.inl h)
    · exact .inl (.refl (by simp [h, ha]))
  | @step a b u ha hl _ ih =>
    rcases ih with h | h | h
    · by_cases has : a = s
      · subst has; exact .inr (.inr ⟨b, hl, h⟩)
      · exact .inl (.step (by simp [has, ha]) hl h)
    · exact .inr (.inl h)
    · exact .inr (.inr h)

theorem ReachAvoid.cut_self {E : Env δ ω} {path : List Str} {s t : Str} (h : ReachAvoid E path s t) :
    t = s ∨ ∃ u, Links E s u ∧ ReachAvoid E (s :: path) u t := by
  rcases h.cut s with h | h | h
  · exact absurd (by simp) h.head
  · exact .inl h
  · exact .inr h

/-- Lemma D. -/
theorem forEach_lost_or_unreached {E : Env δ ω} {root s : Str} {path : List Str}
    (hd : E.cfg.hasSection E.defaultName = true) (n : Nat)
    (hrec : ∀ t, t ∉ path → t ≠ root → ∀ w w', (∀ x, x ∈ w.processed ↔ x ∈ path) →
      parseR E n root t true false w = (.ok (), w') →
      E.defaultName ∉ w'.processed ∨ ((∀ x, x ∈ w'.processed ↔ x ∈ path) ∧ ¬ ReachAvoid E path t root))
    (keys : List Str) (w w' : World δ ω) (hw : ∀ x, x ∈ w.processed ↔ x ∈ path)
    (hok : M.forEach keys (processOption E (fun t => parseR E n root t true false) root s) w = (.ok (), w')) :
    E.defaultName ∉ w'.processed ∨ ((∀ x, x ∈ w'.processed ↔ x ∈ path) ∧
      ∀ k ∈ keys, ∀ t, meaning E root s k = .link t → ¬ ReachAvoid E path t root) := by
  induction keys generalizing w with
  | nil => cases hok; exact .inr ⟨hw, by simp⟩
  | cons k ks ih =>
    rw [M.forEach_cons] at hok
    obtain ⟨_, w1, h1, hok⟩ := bind_ok_inv hok
    have keep := forEach_proc_subset (fun t w w' h => (parseR_proc_subset n h).2) ks w1 w' hok
    have main : E.defaultName ∉ w1.processed ∨ ((∀ x, x ∈ w1.processed ↔ x ∈ path) ∧
        ∀ t, meaning E root s k = .link t → ¬ ReachAvoid E path t root) := by
      cases hm : meaning E root s k with
      | events evs =>
        exact .inr ⟨fun x => (processOption_events_ok hm h1 x).trans (hw x), fun t h => by cases h⟩
      | link t =>
        rcases processOption_link_ok hm h1 with ⟨ht, hp⟩ | ⟨ht, wa, wb, pa, hr, pb⟩
        · refine .inr ⟨fun x => by rw [hp]; exact hw x, fun t' h => ?_⟩
          cases h
          intro hx
          exact hx.head ((hw t).mp ht)
        · have ht' : t ∉ path := fun h => ht ((hw t).mpr h)
          by_cases htr : t = root
          · subst htr
            left
            rw [pb]
            exact parseR_root_loses_default n hd hr
          · rcases hrec t ht' htr wa wb (by rw [pa]; exact hw) hr with h | ⟨h, hn⟩
            · left; rw [pb]; exact h
            · refine .inr ⟨by rw [pb]; exact h, fun t' h => ?_⟩
              cases h
              exact hn
    rcases main with h | ⟨h, hn⟩
    · exact .inl (fun hx => h (keep _ hx))
    · rcases ih w1 h hok with h' | ⟨h', hn'⟩
      · exact .inl h'
      · refine .inr ⟨h', fun k' hk' => ?_⟩
        rcases List.mem_cons.mp hk' with rfl | hk'
        · exact hn
        · exact hn' k' hk'

theorem main_lost_or_unreached {E : Env δ ω} {root : Str}
    (hd : E.cfg.hasSection E.defaultName = true) (n : Nat) :
    ∀ {s : Str} {path : List Str} {w w' : World δ ω}, s ∉ path → s ≠ root →
      (∀ x, x ∈ w.processed ↔ x ∈ path) →
      parseR E n root s true false w = (.ok (), w') →
      E.defaultName ∉ w'.processed ∨ ((∀ x, x ∈ w'.processed ↔ x ∈ path) ∧ ¬ ReachAvoid E path s root) := by
  induction n with
  | zero => intro s path w w' _ _ _ hok; cases hok
  | succ n ih =>
    intro s path w w' hs hr hw hok
    rw [parseR_succ_other (.inr hr)] at hok
    obtain ⟨keys, w1, w2, ho, h1, h2, h3, h4⟩ := parseMain_ok hok
    have := forEach_lost_or_unreached (s := s) (path := s :: path) hd n
      (fun t ht htr w w' hw hk => ih ht htr hw hk) keys w1 w2
      (fun x => by rw [h1, hw]; simp) h2
    rcases this with h | ⟨h, hn⟩
    · exact .inl (fun hx => h ((h4 _).mp hx).1)
    · refine .inr ⟨fun x => ?_, ?_⟩
      · rw [h4, h]
        simp only [List.mem_cons]
        constructor
        · rintro ⟨a | a, b⟩
          · exact absurd a b
          · exact a
        · intro a; exact ⟨.inr a, fun e => hs (e ▸ a)⟩
      · intro hx
        rcases hx.cut_self with e | ⟨u, ⟨keys', k, hk1, hk2, hk3⟩, hu⟩
        · exact hr e.symm
        · rw [ho] at hk1; cases hk1
          exact hn k hk2 u (meaning_link_root hk3) hu

/-- If a parse of `root` succeeds, the DEFAULT section (when there is one) does not lead to `root`. -/
theorem success_unreached {E : Env δ ω} {n : Nat} {root : Str} {fin : Bool} {w w' : World δ ω}
    (hok : parseR E n root root true fin w = (.ok (), w')) (hw : w.processed = [])
    (hd : E.cfg.hasSection E.defaultName = true) :
    root = E.defaultName ∨ ¬ Reaches E E.defaultName root := by
  by_cases hr : E.defaultName = root
  · exact .inl hr.symm
  right
  cases n with
  | zero => cases hok
  | succ n =>
    rw [parseR_succ_init] at hok
    obtain ⟨_, w1, h1, hok⟩ := bind_ok_inv hok
    have p1 := callHandler_ok_proc h1
    rw [if_pos hd] at hok
    obtain ⟨_, w2, h2, hok⟩ := bind_ok_inv hok
    cases n with
    | zero => cases h2
    | succ n =>
      rw [parseR_succ_other (.inl rfl)] at h2
      obtain ⟨keys, w3, w4, ho, g1, g2, g3, g4⟩ := parseMain_ok h2
      have := forEach_lost_or_unreached (s := E.defaultName) (path := [E.defaultName]) hd n
        (fun t ht htr w w' hw hk => main_lost_or_unreached hd n ht htr hw hk) keys w3 w4
        (fun x => by rw [g1, p1, hw]; simp) g2
      rcases this with h | ⟨h, hn⟩
      · exact absurd g3 h
      · rw [← reachAvoid_nil]
        intro hx
        rcases hx.cut_self with e | ⟨u, ⟨keys', k, hk1, hk2, hk3⟩, hu⟩
        · exact hr e.symm
        · rw [ho] at hk1; cases hk1
          exact hn k hk2 u (meaning_link_root hk3) hu

end CPE
