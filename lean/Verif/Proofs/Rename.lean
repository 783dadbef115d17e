import Verif.Spec.Rename
import Verif.Proofs.Replay
import Verif.Proofs.Move
/-
Renaming the sections of a file: the unrolling of the new file.
-/
namespace CPE
open CPE.Spec
variable {δ ω : Type} {E : Env δ ω} {c' : Cfg} {ρ : Str → Str} {κ : Str → Str → Str} {root : Str}

/-- An event under the new names. -/
def renEv (ρ : Str → Str) : Ev δ ω → Ev δ ω
  | .visit x => .visit (ρ x)
  | .missing x => .missing (ρ x)
  | .call h c => .call h { c with sectionName := ρ c.sectionName, sectionRoot := ρ c.sectionRoot }
  | .cycle x w => .cycle (ρ x) (ρ w)
  | ev => ev

theorem renEv_stores (l : List (Ev δ ω)) : stores (l.map (renEv ρ)) = stores l := by
  induction l with
  | nil => rfl
  | cons e l ih => cases e <;> simp [stores, renEv, ih]

/-- What an option that is no link means in the new file; its handler calls go to handlers of the class. -/
theorem meaning_renamed {x k : Str} (hv : c'.value (ρ x) k = E.cfg.value x k) {evs : List (Ev δ ω)}
    (h : meaning E root x k = .events evs) :
    meaning { E with cfg := c' } (ρ root) (ρ x) k = .events (evs.map (renEv ρ)) ∧ ∀ g c, .call g c ∈ evs → OfClass E g := by
  unfold meaning at h ⊢
  rw [show ({ E with cfg := c' } : Env δ ω).cfg.value (ρ x) k = E.cfg.value x k from hv]
  have hp : ∀ op, publicHandler ({ E with cfg := c' } : Env δ ω) op = publicHandler E op := fun _ => rfl
  cases hx : E.cfg.value x k with
  | error e => rw [hx] at h; cases h; exact ⟨rfl, by simp⟩
  | ok v =>
    rw [hx] at h
    dsimp only at h ⊢
    cases hs : shlexSplit (strip k) with
    | error e => rw [hs] at h; cases h; exact ⟨rfl, by simp⟩
    | ok ws =>
      rw [hs] at h
      cases ws with
      | nil => cases h; exact ⟨rfl, by simp⟩
      | cons word params =>
        dsimp only at h ⊢
        by_cases hw : OpWord word
        · rw [if_pos hw] at h ⊢
          rw [hp]
          cases h1 : publicHandler E (opName word) with
          | none =>
            rw [h1] at h
            cases h2 : E.priv (opName word) with
            | none => rw [h2] at h; cases h; exact ⟨rfl, by simp⟩
            | some im =>
              rw [h2] at h
              cases im with
              | use =>
                dsimp only at h ⊢
                cases params with
                | nil => cases h; exact ⟨rfl, by simp⟩
                | cons p ps => cases h
              | user g =>
                cases h
                refine ⟨rfl, fun g' c hg => ?_⟩
                simp only [List.mem_singleton, Ev.call.injEq] at hg
                exact hg.1 ▸ .inr ⟨_, h2⟩
          | some g =>
            rw [h1] at h
            cases h2 : E.priv (opName word) with
            | none =>
              rw [h2] at h
              cases h
              refine ⟨rfl, fun g' c hg => ?_⟩
              simp only [List.mem_singleton, Ev.call.injEq] at hg
              exact hg.1 ▸ .inl ⟨_, h1⟩
            | some im =>
              rw [h2] at h
              cases h
              refine ⟨rfl, fun g' c hg => ?_⟩
              simp only [List.mem_cons, List.not_mem_nil, or_false, Ev.call.injEq, reduceCtorEq, false_or] at hg
              exact hg.1 ▸ .inl ⟨_, h1⟩
        · rw [if_neg hw] at h ⊢
          cases h; exact ⟨rfl, by simp⟩

theorem mem_path (hinj : ∀ x y, ρ x = ρ y → x = y) {p : List Str} {x : Str} : ρ x ∈ p.map ρ ↔ x ∈ p := by
  constructor
  · intro h
    obtain ⟨y, hy, e⟩ := List.mem_map.1 h
    exact hinj _ _ e ▸ hy
  · exact fun h => List.mem_map.2 ⟨x, h, rfl⟩

/-- The unrolling of the new file. -/
theorem unrolls_renamed (R : Renamed E c' ρ κ) {task : Task} {evs : List (Ev δ ω)} (h : Unrolls E root task evs) :
    (match task with
    | .sec p x => Unrolls { E with cfg := c' } (ρ root) (.sec (p.map ρ) (ρ x)) (evs.map (renEv ρ))
    | .opts p x keys => ∀ all, E.cfg.optionNames x = some all → (∀ k ∈ keys, k ∈ all) →
        Unrolls { E with cfg := c' } (ρ root) (.opts (p.map ρ) (ρ x) (keys.map (κ x))) (evs.map (renEv ρ))) ∧
    ((∀ p x keys, task = .opts p x keys → ∃ all, E.cfg.optionNames x = some all ∧ ∀ k ∈ keys, k ∈ all) →
      ∀ g c, .call g c ∈ evs → OfClass E g) := by
  induction h with
  | @missing path x ho =>
    refine ⟨.missing ?_, fun _ g c hg => by simp at hg⟩
    show c'.optionNames (ρ x) = none
    rw [R.options, ho]; rfl
  | @sec path x keys evs ho hu ih =>
    refine ⟨.sec (keys := keys.map (κ x)) ?_ (ih.1 keys ho fun _ h => h), fun _ g c hg => ?_⟩
    · show c'.optionNames (ρ x) = _
      rw [R.options, ho]; rfl
    · simp only [List.mem_cons, reduceCtorEq, false_or] at hg
      exact ih.2 (fun p x' ks e => by cases e; exact ⟨keys, ho, fun _ h => h⟩) g c hg
  | nil => exact ⟨fun _ _ _ => .nil, fun _ g c hg => by cases hg⟩
  | @plain path x k ks evs rest hm _ ih =>
    have key : ∀ all, E.cfg.optionNames x = some all → (∀ j ∈ k :: ks, j ∈ all) →
        meaning { E with cfg := c' } (ρ root) (ρ x) (κ x k) = .events (evs.map (renEv ρ)) ∧ ∀ g c, .call g c ∈ evs → OfClass E g := by
      intro all ha hk
      have hno : ∀ w, meaning E x x k ≠ .link w := fun w h => by
        rw [meaning_link_root (root' := root) h] at hm; cases hm
      obtain ⟨g1, g2⟩ := R.others x all k ha (hk _ (.head _)) hno
      rw [g1]
      exact meaning_renamed g2 hm
    refine ⟨fun all ha hk => ?_, fun hall g c hg => ?_⟩
    · rw [List.map_append]
      exact .plain (key all ha hk).1 (ih.1 all ha fun j hj => hk j (.tail _ hj))
    · obtain ⟨all, ha, hk⟩ := hall _ _ _ rfl
      rcases List.mem_append.1 hg with hg | hg
      · exact (key all ha hk).2 g c hg
      · exact ih.2 (fun p x' ks' e => by cases e; exact ⟨all, ha, fun j hj => hk j (.tail _ hj)⟩) g c hg
  | @cyclic path x k ks w rest hm hw _ ih =>
    refine ⟨fun all ha hk => ?_, fun hall g c hg => ?_⟩
    · exact .cyclic (meaning_link_root (R.uses x all k w ha (hk _ (.head _)) (meaning_link_root hm))) ((mem_path R.inj).2 hw)
        (ih.1 all ha fun j hj => hk j (.tail _ hj))
    · obtain ⟨all, ha, hk⟩ := hall _ _ _ rfl
      simp only [List.mem_cons, reduceCtorEq, false_or] at hg
      exact ih.2 (fun p x' ks' e => by cases e; exact ⟨all, ha, fun j hj => hk j (.tail _ hj)⟩) g c hg
  | @link path x k ks w sub rest hm hw _ _ ih1 ih2 =>
    refine ⟨fun all ha hk => ?_, fun hall g c hg => ?_⟩
    · rw [List.map_append]
      exact .link (meaning_link_root (R.uses x all k w ha (hk _ (.head _)) (meaning_link_root hm))) (fun h => hw ((mem_path R.inj).1 h))
        ih1.1 (ih2.1 all ha fun j hj => hk j (.tail _ hj))
    · obtain ⟨all, ha, hk⟩ := hall _ _ _ rfl
      rcases List.mem_append.1 hg with hg | hg
      · exact ih1.2 (fun p x' ks' e => by cases e) g c hg
      · exact ih2.2 (fun p x' ks' e => by cases e; exact ⟨all, ha, fun j hj => hk j (.tail _ hj)⟩) g c hg

/-- The unrolling of a whole parse. -/
theorem parseTrace_renamed (R : Renamed E c' ρ κ) {i f : Bool} {evs : List (Ev δ ω)} (h : ParseTrace E root i f evs) :
    ParseTrace { E with cfg := c' } (ρ root) i f (evs.map (renEv ρ)) ∧ ∀ g c, .call g c ∈ evs → OfClass E g := by
  have hd : ({ E with cfg := c' } : Env δ ω).cfg.hasSection E.defaultName = E.cfg.hasSection E.defaultName := R.default.2
  obtain ⟨h1, h2, h3⟩ := h
  rename_i evD evR
  obtain ⟨r1, r2⟩ := unrolls_renamed R h3
  have hI : OfClass E E.hookInit := .inl ⟨py!"initialize", rfl⟩
  have hF : OfClass E E.hookFinal := .inl ⟨py!"finalize", rfl⟩
  have hD : (i = true ∧ E.cfg.hasSection E.defaultName = true →
      Unrolls { E with cfg := c' } (ρ root) (.sec [] E.defaultName) (evD.map (renEv ρ))) ∧ ∀ g c, .call g c ∈ evD → OfClass E g := by
    by_cases hx : i = true ∧ E.cfg.hasSection E.defaultName = true
    · obtain ⟨d1, d2⟩ := unrolls_renamed R (h1 hx)
      have d1 : Unrolls { E with cfg := c' } (ρ root) (.sec [] (ρ E.defaultName)) (evD.map (renEv ρ)) := d1
      rw [R.default.1] at d1
      exact ⟨fun _ => d1, d2 fun p x ks e => by cases e⟩
    · exact ⟨fun h => absurd h hx, by rw [h2 hx]; intro g c h; cases h⟩
  refine ⟨?_, fun g c hg => ?_⟩
  · have := ParseTrace.mk (E := { E with cfg := c' }) (root := ρ root) (init := i) (fin := f) (evD := evD.map (renEv ρ))
      (evR := evR.map (renEv ρ)) (fun hx => hD.1 ⟨hx.1, hd.symm.trans hx.2⟩)
      (fun hx => by rw [h2 fun hy => hx ⟨hy.1, hd.trans hy.2⟩]; rfl) r1
    rw [List.map_append, List.map_append, List.map_append]
    cases i <;> cases f <;> exact this
  · simp only [List.mem_append] at hg
    rcases hg with ((hg | hg) | hg) | hg
    · cases i
      · cases hg
      · simp only [if_true, List.mem_singleton, Ev.call.injEq] at hg; exact hg.1 ▸ hI
    · exact hD.2 g c hg
    · exact r2 (fun p x ks e => by cases e) g c hg
    · cases f
      · cases hg
      · simp only [if_true, List.mem_singleton, Ev.call.injEq] at hg; exact hg.1 ▸ hF

/-! ### Replaying -/

/-- The same under the new names. -/
structure NameRel (ρ : Str → Str) (c d : Core δ ω) : Prop where
  data : ∀ x, Dict.get? d.data (ρ x) = Dict.get? c.data x
  shared : d.shared = c.shared
  self : d.self = c.self
  out : d.out = c.out

theorem notify_renamed {ev : Event} {n : Nat} {e : PyExc} {c d : Core δ ω} (h : NameRel ρ c d) :
    (notify { E with cfg := c' } ev n e d).1 = (notify E ev n e c).1 ∧
    NameRel ρ (notify E ev n e c).2 (notify { E with cfg := c' } ev n e d).2 := by
  unfold notify
  dsimp only
  split
  · exact ⟨rfl, h⟩
  · split
    · exact ⟨rfl, h.data, h.shared, h.self, by rw [h.out]⟩
    · exact ⟨rfl, h⟩

theorem evStep_renamed (hinj : ∀ x y, ρ x = ρ y → x = y) (hb : NameBlind E) (ev : Ev δ ω) (hg : ∀ g c, ev = .call g c → OfClass E g)
    {c d : Core δ ω} (h : NameRel ρ c d) :
    (evStep { E with cfg := c' } (ρ root) (renEv ρ ev) d).1 = (evStep E root ev c).1 ∧
    NameRel ρ (evStep E root ev c).2 (evStep { E with cfg := c' } (ρ root) (renEv ρ ev) d).2 := by
  have hiff : ∀ x y, ρ x = ρ y ↔ x = y := fun x y => ⟨hinj x y, congrArg ρ⟩
  cases ev with
  | visit x =>
    have key : ∀ (r x y : Str) (c : Core δ ω), Dict.get? (evStep E r (.visit x) c).2.data y =
        if y = x then some ((Dict.get? c.data x).getD []) else Dict.get? c.data y := by
      intro r x y c
      rw [← visit_get]
      show Dict.get? (if (Dict.get? c.data x).isSome = true then c else _).data y = _
      split <;> rfl
    refine ⟨rfl, ⟨fun y => ?_, ?_, ?_, ?_⟩⟩
    · show Dict.get? (evStep E (ρ root) (.visit (ρ x)) d).2.data (ρ y) = _
      rw [key, key, h.data x, h.data y]
      simp only [hiff]
    all_goals
      simp only [evStep, renEv]
      split <;> split <;> first | exact h.shared | exact h.self | exact h.out
  | missing x => exact ⟨rfl, h⟩
  | store k v =>
    refine ⟨rfl, ⟨fun y => ?_, h.shared, h.self, h.out⟩⟩
    simp only [evStep, renEv]
    rw [Dict.get?_set, Dict.get?_set, h.data root, h.data y]
    simp only [hiff]
  | call g hc =>
    simp only [evStep, renEv, h.shared, h.self, hb g (hg g hc rfl)]
    cases (g.run hc c.shared c.self).1 with
    | error e => exact ⟨rfl, h.data, rfl, rfl, h.out⟩
    | ok v =>
      dsimp only
      have h' : NameRel ρ { c with shared := (g.run hc c.shared c.self).2.1, self := (g.run hc c.shared c.self).2.2 }
          { d with shared := (g.run hc c.shared c.self).2.1, self := (g.run hc c.shared c.self).2.2 } := ⟨h.data, rfl, rfl, h.out⟩
      split
      · unfold onReturn
        cases v with
        | notInt => exact ⟨rfl, h'⟩
        | int n =>
          dsimp only
          split
          · exact ⟨rfl, h'⟩
          · split
            · exact ⟨rfl, h'⟩
            · exact notify_renamed h'
      · exact ⟨rfl, h'⟩
  | cycle x y => exact notify_renamed h
  | ambiguous op => exact notify_renamed h
  | fail e => exact ⟨rfl, h⟩

theorem replay_renamed (hinj : ∀ x y, ρ x = ρ y → x = y) (hb : NameBlind E) (l : List (Ev δ ω)) (hg : ∀ g c, .call g c ∈ l → OfClass E g) :
    ∀ c d : Core δ ω, NameRel ρ c d →
      (replay { E with cfg := c' } (ρ root) (l.map (renEv ρ)) d).1 = (replay E root l c).1 ∧
      NameRel ρ (replay E root l c).2 (replay { E with cfg := c' } (ρ root) (l.map (renEv ρ)) d).2 := by
  induction l with
  | nil => exact fun c d h => ⟨rfl, h⟩
  | cons ev l ih =>
    intro c d h
    obtain ⟨h1, h2⟩ := evStep_renamed (E := E) (c' := c') (root := root) hinj hb ev (fun g c e => hg g c (e ▸ .head _)) h
    rw [List.map_cons, replay_step, replay_step, h1]
    cases (evStep E root ev c).1 with
    | none => exact ih (fun g c hm => hg g c (.tail _ hm)) _ _ h2
    | some e => exact ⟨rfl, h2⟩

/-- What is reached under the new names was reached before. -/
theorem reaches_renamed (R : Renamed E c' ρ κ) {x' w' : Str} (h : Reaches { E with cfg := c' } x' w') :
    ∀ x, x' = ρ x → ∃ w, w' = ρ w ∧ Reaches E x w := by
  induction h with
  | refl x' => intro x e; exact ⟨x, e, .refl _⟩
  | @step x' y' w' hl _ ih =>
    rintro x rfl
    obtain ⟨keys', k', h1, h2, h3⟩ := hl
    rw [show ({ E with cfg := c' } : Env δ ω).cfg.optionNames (ρ x) = _ from R.options x] at h1
    cases hk : E.cfg.optionNames x with
    | none => rw [hk] at h1; cases h1
    | some keys =>
      rw [hk] at h1
      cases h1
      obtain ⟨k, hkm, rfl⟩ := List.mem_map.1 h2
      cases hm : meaning E x x k with
      | link v =>
        have := R.uses x keys k v hk hkm hm
        rw [h3] at this
        cases this
        obtain ⟨w, e, hr⟩ := ih v rfl
        exact ⟨w, e, .step ⟨keys, k, hk, hkm, hm⟩ hr⟩
      | events evs =>
        obtain ⟨g1, g2⟩ := R.others x keys k hk hkm (fun w h => by rw [hm] at h; cases h)
        rw [g1, (meaning_renamed g2 hm).1] at h3
        cases h3

end CPE
