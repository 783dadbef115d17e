import Verif.Proofs.Refine
/-
Unrolling is total and deterministic, and the fuelled parser follows it.
-/
namespace CPE
open Spec
variable {δ ω : Type}

/-- The names `s` for which `parser[s]` exists. -/
def Cfg.allNames (c : Cfg) : List Str := c.commonName :: c.sectionNames

theorem Cfg.optionNames_isSome (c : Cfg) (s : Str) : (c.optionNames s).isSome ↔ s ∈ c.allNames := by
  unfold Cfg.optionNames Cfg.allNames Cfg.sectionNames
  by_cases h : s = c.commonName
  · simp [h]
  · have := Dict.get?_isSome_iff c.sections s
    cases hg : Dict.get? c.sections s with
    | none => rw [hg] at this; simp [h]; simpa using this
    | some v => rw [hg] at this; simp [h]; simpa using this

/-- How many names are not on the path. -/
def todo (E : Env δ ω) (path : List Str) : Nat := (E.cfg.allNames.filter fun s => decide (s ∉ path)).length

theorem todo_nil (E : Env δ ω) : todo E [] = E.cfg.sectionNames.length + 1 := by
  unfold todo
  rw [List.filter_eq_self.mpr (by simp)]
  simp [Cfg.allNames]

theorem todo_cons_lt {E : Env δ ω} {path : List Str} {s : Str} (hs : s ∈ E.cfg.allNames) (hp : s ∉ path) :
    todo E (s :: path) < todo E path := by
  unfold todo
  generalize E.cfg.allNames = l at hs
  induction l with
  | nil => cases hs
  | cons a l ih =>
    have le : (l.filter fun x => decide (x ∉ s :: path)).length ≤ (l.filter fun x => decide (x ∉ path)).length := by
      clear ih hs
      induction l with
      | nil => simp
      | cons b l ih =>
        simp only [List.filter_cons, List.mem_cons, not_or]
        by_cases h1 : b = s <;> by_cases h2 : b ∈ path <;> simp [h1, h2] <;>
          simp only [List.mem_cons, not_or] at ih <;> first | exact ih | (simp at ih; omega) | skip
        all_goals (subst h1; simp [hp] at *; try omega)
    by_cases ha : a = s
    · subst ha
      simp only [List.filter_cons]
      simp [hp]
      simp at le
      omega
    · have hs' : s ∈ l := by
        rcases List.mem_cons.mp hs with h | h
        · exact absurd h.symm ha
        · exact h
      have := ih hs'
      simp only [List.filter_cons]
      by_cases h2 : a ∈ path
      · simp [ha, h2]; simpa using this
      · simp [ha, h2]; simpa using this

theorem todo_pos_or {E : Env δ ω} {path : List Str} {s : Str} (hs : s ∈ E.cfg.allNames) (hp : s ∉ path) :
    0 < todo E path := Nat.lt_of_le_of_lt (Nat.zero_le _) (todo_cons_lt hs hp)

/-- Which root is being parsed does not matter for what is a link. -/
theorem meaning_link_root {E : Env δ ω} {root root' s k t : Str} (h : meaning E root s k = .link t) :
    meaning E root' s k = .link t := by
  unfold meaning at h ⊢
  cases hv : E.cfg.value s k with
  | error e => rw [hv] at h; cases h
  | ok v =>
    rw [hv] at h; simp only at h ⊢
    cases hs : shlexSplit (strip k) with
    | error e => rw [hs] at h; cases h
    | ok toks =>
      rw [hs] at h
      cases toks with
      | nil => cases h
      | cons w ps =>
        simp only at h ⊢
        by_cases ho : OpWord w
        · rw [if_pos ho] at h ⊢
          cases hp : publicHandler E (opName w) <;> cases hq : E.priv (opName w) <;>
            rw [hp, hq] at h
          · cases h
          · rename_i i
            cases i with
            | user g => cases h
            | use => cases ps with
              | nil => cases h
              | cons a as => exact h
          · cases h
          · cases h
        · rw [if_neg ho] at h; cases h

theorem links_of_meaning {E : Env δ ω} {root s k t : Str} {keys : List Str}
    (hk : E.cfg.optionNames s = some keys) (hm : k ∈ keys) (h : meaning E root s k = .link t) :
    Links E s t := ⟨keys, k, hk, hm, meaning_link_root h⟩

/-! ### Totality and determinism -/

theorem unrolls_opts_total {E : Env δ ω} {root : Str} {path : List Str} (s : Str) (keys : List Str)
    (h : ∀ t, t ∉ path → ∃ evs, Unrolls E root (.sec path t) evs) :
    ∃ evs, Unrolls E root (.opts path s keys) evs := by
  induction keys with
  | nil => exact ⟨[], .nil⟩
  | cons k ks ih =>
    obtain ⟨rest, hr⟩ := ih
    cases hm : meaning E root s k with
    | events evs => exact ⟨_, .plain hm hr⟩
    | link t =>
      by_cases ht : t ∈ path
      · exact ⟨_, .cyclic hm ht hr⟩
      · obtain ⟨sub, hs⟩ := h t ht
        exact ⟨_, .link hm ht hs hr⟩

theorem unrolls_total (E : Env δ ω) (root : Str) (path : List Str) (s : Str) (hp : s ∉ path) :
    ∃ evs, Unrolls E root (.sec path s) evs := by
  generalize hn : todo E path = n
  induction n using Nat.strongRecOn generalizing path s with
  | _ n ih =>
    cases ho : E.cfg.optionNames s with
    | none => exact ⟨_, .missing ho⟩
    | some keys =>
      have hs : s ∈ E.cfg.allNames := (Cfg.optionNames_isSome _ _).mp (by simp [ho])
      have hlt := todo_cons_lt hs hp
      obtain ⟨evs, h⟩ := unrolls_opts_total s keys
        (fun t ht => ih (todo E (s :: path)) (by omega) (s :: path) t ht rfl)
      exact ⟨_, .sec ho h⟩

theorem unrolls_det {E : Env δ ω} {root : Str} {task : Task} {a b : List (Ev δ ω)}
    (ha : Unrolls E root task a) (hb : Unrolls E root task b) : a = b := by
  induction ha generalizing b with
  | missing h =>
    cases hb with
    | missing _ => rfl
    | sec h' _ => rw [h] at h'; cases h'
  | sec h _ ih =>
    cases hb with
    | missing h' => rw [h] at h'; cases h'
    | sec h' hb' => rw [h] at h'; cases h'; rw [ih hb']
  | nil => cases hb; rfl
  | plain h _ ih =>
    cases hb with
    | plain h' hb' => rw [h] at h'; cases h'; rw [ih hb']
    | cyclic h' _ _ => rw [h] at h'; cases h'
    | link h' _ _ _ => rw [h] at h'; cases h'
  | cyclic h hp _ ih =>
    cases hb with
    | plain h' hb' => rw [h] at h'; cases h'
    | cyclic h' _ hb' => rw [h] at h'; cases h'; rw [ih hb']
    | link h' hp' _ _ => rw [h] at h'; cases h'; exact absurd hp hp'
  | link h hp _ _ ih1 ih2 =>
    cases hb with
    | plain h' hb' => rw [h] at h'; cases h'
    | cyclic h' hp' hb' => rw [h] at h'; cases h'; exact absurd hp' hp
    | link h' _ hb1 hb2 => rw [h] at h'; cases h'; rw [ih1 hb1, ih2 hb2]

theorem parseTrace_total (E : Env δ ω) (root : Str) (init fin : Bool) :
    ∃ evs, ParseTrace E root init fin evs := by
  obtain ⟨evR, hR⟩ := unrolls_total E root [] root (by simp)
  obtain ⟨evD, hD⟩ := unrolls_total E root [] E.defaultName (by simp)
  by_cases h : init = true ∧ E.cfg.hasSection E.defaultName = true
  · exact ⟨_, .mk (fun _ => hD) (fun hn => absurd h hn) hR⟩
  · exact ⟨_, .mk (fun hi => absurd hi h) (fun _ => rfl) hR⟩

theorem parseTrace_det {E : Env δ ω} {root : Str} {init fin : Bool} {a b : List (Ev δ ω)}
    (ha : ParseTrace E root init fin a) (hb : ParseTrace E root init fin b) : a = b := by
  obtain ⟨h1, h2, h3⟩ := ha
  obtain ⟨g1, g2, g3⟩ := hb
  have e3 := unrolls_det h3 g3
  by_cases h : init = true ∧ E.cfg.hasSection E.defaultName = true
  · rw [unrolls_det (h1 h) (g1 h), e3]
  · rw [h2 h, g2 h, e3]

/-! ### The parser follows the unrolling -/

theorem Sim.weaken_path {α : Type} {E : Env δ ω} {root : Str} {path path' : List Str}
    {m : M (World δ ω) α} {a : α} {evs : List (Ev δ ω)} (h : Sim E root path m a evs)
    (hp : ∀ x, x ∈ path' ↔ x ∈ path) : Sim E root path' m a evs := by
  intro w hw
  obtain ⟨h1, h2, h3⟩ := h w (fun x => (hw x).trans (hp x))
  exact ⟨h1, h2, fun hk x => (h3 hk x).trans (hp x).symm⟩

/-- The hook at the end of the root section. -/
def finEvents (E : Env δ ω) (root s : Str) (fin : Bool) : List (Ev δ ω) :=
  if fin && s = root then [.call E.hookFinal (hookCall root py!"handler_finalize")] else []

theorem Sim.main_missing {E : Env δ ω} {root : Str} {path : List Str} {s : Str} {fin : Bool}
    (rec : Str → M (World δ ω) Unit) (ho : E.cfg.optionNames s = none) :
    Sim E root path (parseMain E rec root s fin) () [.missing s] := by
  unfold parseMain
  rw [ho]
  refine ((Sim.log (.sectionEntry s)).bind (evs' := [.missing s]) ?_).congr rfl rfl
  intro w _
  exact ⟨rfl, rfl, fun h => by cases h⟩

theorem Sim.main {E : Env δ ω} {root : Str} {path : List Str} {s : Str} {keys : List Str} {fin : Bool}
    {evs : List (Ev δ ω)} (rec : Str → M (World δ ω) Unit) (ho : E.cfg.optionNames s = some keys)
    (hp : s ∉ path)
    (h : Sim E root (s :: path) (M.forEach keys (processOption E rec root s)) () evs) :
    Sim E root path (parseMain E rec root s fin) () (.visit s :: evs ++ finEvents E root s fin) := by
  unfold parseMain
  rw [ho]
  refine ((Sim.log (.sectionEntry s)).bind (evs' := .visit s :: evs ++ finEvents E root s fin) ?_).congr rfl rfl
  -- the loop, and then the final hook, below `s`
  have hbody : Sim E root (s :: path) (do
      M.forEach keys (processOption E rec root s)
      if fin && s = root then
        callHandler E E.hookFinal
          { sectionName := s, sectionRoot := root, handlerName := py!"handler_finalize" }) ()
      (evs ++ finEvents E root s fin) := by
    refine h.bind ?_
    unfold finEvents
    by_cases hf : (fin && decide (s = root)) = true
    · rw [if_pos hf, if_pos hf]
      have : s = root := by simp at hf; exact hf.2
      subst this
      exact Sim.call _ _
    · rw [if_neg hf, if_neg hf]
      exact Sim.pure' ()
  intro w hw
  dsimp only
  rw [M.bind_ok (addSection_apply s w), M.modify_bind]
  have hrep : ∀ l, replay E root (.visit s :: l) w.toCore = replay E root l
      { w.toCore with data := if (Dict.get? w.data s).isSome then w.data else w.data ++ [(s, [])] } := by
    intro l
    simp only [replay, evStep]
    by_cases hd : (Dict.get? w.data s).isSome = true
    · simp [hd]
    · simp [hd]
  rw [List.cons_append, hrep]
  generalize hw' : ({ w with
    data := if (Dict.get? w.data s).isSome then w.data else w.data ++ [(s, [])],
    processed := setAdd w.processed s } : World δ ω) = w'
  have hc : w'.toCore = { w.toCore with
      data := if (Dict.get? w.data s).isSome then w.data else w.data ++ [(s, [])] } := by
    rw [← hw']
  have hpr : ∀ x, x ∈ w'.processed ↔ x ∈ s :: path := by
    intro x
    rw [← hw']
    simp only [mem_setAdd, List.mem_cons, hw]
  have key := hbody w' hpr
  rw [← hc]
  have hsplit : ∀ (g : Unit → M (World δ ω) Unit), (do
      M.forEach keys (processOption E rec root s)
      if fin && s = root then
        callHandler E E.hookFinal
          { sectionName := s, sectionRoot := root, handlerName := py!"handler_finalize" }
        g ()
      else g ()) = ((do
      M.forEach keys (processOption E rec root s)
      if fin && s = root then
        callHandler E E.hookFinal
          { sectionName := s, sectionRoot := root, handlerName := py!"handler_finalize" }) >>= g) := by
    intro g
    rw [M.bind_assoc]
    congr 1
    funext _
    by_cases hf : (fin && decide (s = root)) = true
    · rw [if_pos hf, if_pos hf]
    · rw [if_neg hf, if_neg hf]; rfl
  have := hsplit (fun _ => do
    let w ← M.read
    if s ∈ w.processed then
      M.modify fun w => { w with processed := setDel w.processed s }
      logAdd E (.sectionExit s)
    else M.raise .keyError)
  rw [this, M.bind_def]
  obtain ⟨k1, k2, k3⟩ := key
  cases hm : (do
      M.forEach keys (processOption E rec root s)
      if fin && s = root then
        callHandler E E.hookFinal
          { sectionName := s, sectionRoot := root, handlerName := py!"handler_finalize" } : M (World δ ω) Unit) w' with
  | mk o w2 =>
    rw [hm] at k1 k2 k3
    cases hr : replay E root (evs ++ finEvents E root s fin) w'.toCore with
    | mk r c =>
      rw [hr] at k1 k2
      cases r with
      | some e =>
        simp only [outcomeV] at k1 k2
        subst k1
        simp [outcomeV, k2]
      | none =>
        simp only [outcomeV] at k1 k2 k3
        subst k1
        have k3 := k3 rfl
        have hin : s ∈ w2.processed := (k3 s).mpr (by simp)
        simp only [M.read_bind, if_pos hin, M.modify_bind]
        unfold logAdd
        simp only [M.modify_apply, outcomeV, true_and]
        have hpath : ∀ x, x ∈ setDel w2.processed s ↔ x ∈ path := by
          intro x
          rw [mem_setDel, k3]
          simp only [List.mem_cons]
          constructor
          · rintro ⟨h1 | h1, h2⟩
            · exact absurd h1 h2
            · exact h1
          · intro h1
            exact ⟨.inr h1, fun h2 => hp (h2 ▸ h1)⟩
        split <;> exact ⟨k2, fun _ => hpath⟩

/-- The property proved by induction on the unrolling. -/
def SimTask (E : Env δ ω) (root : Str) : Task → List (Ev δ ω) → Prop
  | .sec path s, evs => ∀ n, todo E path ≤ n → s ∉ path → (root ∈ path ∨ root = s ∨ ¬ Reaches E s root) →
      ∀ fin, Sim E root path (parseMain E (fun t => parseR E n root t true false) root s fin) ()
        (evs ++ finEvents E root s fin)
  | .opts path s keys, evs => ∀ n, todo E path + 1 ≤ n → (root ∈ path ∨ ¬ Reaches E s root) →
      (∃ names, E.cfg.optionNames s = some names ∧ ∀ k ∈ keys, k ∈ names) →
      Sim E root path (M.forEach keys (processOption E (fun t => parseR E n root t true false) root s)) () evs

theorem Sim.append_missing {α : Type} {E : Env δ ω} {root : Str} {path : List Str} {m : M (World δ ω) α} {a : α} {s : Str}
    (h : Sim E root path m a [.missing s]) (l : List (Ev δ ω)) : Sim E root path m a ([.missing s] ++ l) := by
  intro w hw
  exact h w hw

theorem simTask {E : Env δ ω} {root : Str} {task : Task} {evs : List (Ev δ ω)}
    (h : Unrolls E root task evs) : SimTask E root task evs := by
  induction h with
  | @missing path s ho =>
    intro n _ _ _ fin
    exact (Sim.main_missing _ ho).append_missing _
  | @sec path s keys evs ho _ ih =>
    intro n hn hs hr fin
    have hs' : s ∈ E.cfg.allNames := (Cfg.optionNames_isSome _ _).mp (by simp [ho])
    have hlt := todo_cons_lt hs' hs
    refine Sim.main _ ho hs (ih n (by omega) ?_ ⟨keys, ho, fun _ h => h⟩)
    rcases hr with h | h | h
    · exact .inl (by simp [h])
    · exact .inl (by simp [h])
    · exact .inr h
  | nil =>
    intro n _ _ _
    exact Sim.pure' ()
  | @plain path s k ks evs rest hm _ ih =>
    intro n hn hr ⟨names, ho, hk⟩
    rw [M.forEach_cons]
    exact (Sim.optionEvents _ hm).bind (ih n hn hr ⟨names, ho, fun k h => hk k (by simp [h])⟩)
  | @cyclic path s k ks t rest hm hp _ ih =>
    intro n hn hr ⟨names, ho, hk⟩
    rw [M.forEach_cons]
    exact (Sim.optionLink (evs := [.cycle s t]) _ hm (fun _ => rfl) (fun h => absurd hp h)).bind
      (ih n hn hr ⟨names, ho, fun k h => hk k (by simp [h])⟩)
  | @link path s k ks t sub rest hm hp _ _ ih1 ih2 =>
    intro n hn hr ⟨names, ho, hk⟩
    rw [M.forEach_cons]
    refine (Sim.optionLink (evs := sub) _ hm (fun h => absurd h hp) (fun _ => ?_)).bind
      (ih2 n hn hr ⟨names, ho, fun k h => hk k (by simp [h])⟩)
    obtain ⟨n, rfl⟩ : ∃ m, n = m + 1 := ⟨n - 1, by omega⟩
    have hlink : Links E s t := links_of_meaning ho (hk k (by simp)) hm
    have hr' : root ∈ path ∨ ¬ Reaches E t root := by
      rcases hr with h | h
      · exact .inl h
      · exact .inr (fun hx => h (.step hlink hx))
    have hne : t ≠ root := by
      rintro rfl
      rcases hr' with h | h
      · exact hp h
      · exact h (.refl _)
    have := ih1 n (by omega) hp (by rcases hr' with h | h; exact .inl h; exact .inr (.inr h)) false
    refine this.congr ?_ (by simp [finEvents])
    simp only [parseR, hne, decide_false, Bool.and_false, Bool.false_eq_true, if_false]

/-- Main refinement: `_parse_section_r(root)` behaves as the replay of its trace. -/
theorem simParse {E : Env δ ω} {root : Str} {init fin : Bool} {evs : List (Ev δ ω)} {n : Nat}
    (ht : ParseTrace E root init fin evs)
    (hn : E.cfg.sectionNames.length + 3 ≤ n)
    (hd : init = true → E.cfg.hasSection E.defaultName = true →
      root = E.defaultName ∨ ¬ Reaches E E.defaultName root) :
    Sim E root [] (parseR E n root root init fin) () evs := by
  obtain ⟨h1, h2, h3⟩ := ht
  obtain ⟨n, rfl⟩ : ∃ m, n = m + 2 := ⟨n - 2, by omega⟩
  rename_i evD evR
  have hroot := simTask h3 (n + 1) (by rw [todo_nil]; omega) (by simp) (.inr (.inl rfl)) fin
  have hfin : finEvents E root root fin =
      (if fin then [.call E.hookFinal (hookCall root py!"handler_finalize")] else []) := by
    simp [finEvents]
  rw [hfin] at hroot
  have hR : parseR E (n + 2) root root init fin = (do
      if init then
        callHandler E E.hookInit
          { sectionName := root, sectionRoot := root, handlerName := py!"handler_initialize" }
        if E.cfg.hasSection E.defaultName then
          parseR E (n + 1) root E.defaultName false false
      parseMain E (fun t => parseR E (n + 1) root t true false) root root fin) := by
    simp only [parseR, decide_true, Bool.and_true]
  rw [hR]
  cases init with
  | false =>
    have := h2 (by simp)
    subst this
    simpa using hroot
  | true =>
    simp only [if_true]
    have hi := Sim.call (E := E) (root := root) (path := []) E.hookInit (hookCall root py!"handler_initialize")
    by_cases hh : E.cfg.hasSection E.defaultName = true
    · have hD := h1 ⟨rfl, hh⟩
      have hDs := simTask hD n (by rw [todo_nil]; omega) (by simp)
        (by rcases hd rfl hh with h | h; exact .inr (.inl h); exact .inr (.inr h)) false
      have hPD : parseR E (n + 1) root E.defaultName false false =
          parseMain E (fun t => parseR E n root t true false) root E.defaultName false := by
        simp [parseR]
      simp only [hh, if_true]
      rw [hPD]
      refine (hi.bind (hDs.bind hroot)).congr rfl ?_
      simp [finEvents]
    · have := h2 (by simp [hh])
      subst this
      simp only [hh]
      exact (hi.bind hroot).congr rfl (by simp)

end CPE
