import Verif.Spec.Move
import Verif.Proofs.Replay
/-
Moving options into a section of their own: the unrolling of the new file.
-/
namespace CPE
open CPE.Spec
variable {δ ω : Type} {E : Env δ ω} {c' : Cfg} {s t u root : Str} {a m z : List Str}

/-- A handler of the class. -/
def OfClass (E : Env δ ω) (h : Handler δ ω) : Prop :=
  (∃ op, publicHandler E op = some h) ∨ ∃ op, E.priv op = some (.user h)

/-- The events of the new file: the new section is visited, and options that were moved stand in it. -/
inductive Rel (E : Env δ ω) (s t : Str) : List (Ev δ ω) → List (Ev δ ω) → Prop
  | nil : Rel E s t [] []
  | same {ev l l'} : Rel E s t l l' → Rel E s t (ev :: l) (ev :: l')
  | visit {l l'} : Rel E s t l l' → Rel E s t l (.visit t :: l')
  | call {h c l l'} : OfClass E h → Rel E s t l l' → Rel E s t (.call h c :: l) (.call h { c with sectionName := t } :: l')
  | cycle {x l l'} : Rel E s t l l' → Rel E s t (.cycle s x :: l) (.cycle t x :: l')

theorem rel_refl (l : List (Ev δ ω)) : Rel E s t l l := by
  induction l with
  | nil => exact .nil
  | cons e l ih => exact .same ih

theorem rel_append {l1 l1' l2 l2' : List (Ev δ ω)} (h1 : Rel E s t l1 l1') (h2 : Rel E s t l2 l2') :
    Rel E s t (l1 ++ l2) (l1' ++ l2') := by
  induction h1 with
  | nil => exact h2
  | same _ ih => exact .same ih
  | visit _ ih => exact .visit ih
  | call ho _ ih => exact .call ho ih
  | cycle _ ih => exact .cycle ih

theorem rel_stores {l l' : List (Ev δ ω)} (h : Rel E s t l l') : stores l' = stores l := by
  induction h with
  | nil => rfl
  | @same ev l l' _ ih => cases ev <;> simp [stores, ih]
  | visit _ ih => exact ih
  | call _ _ ih => exact ih
  | cycle _ ih => exact ih

/-- What an option means in the new file. -/
theorem meaning_moved {x y k : Str} (hv : c'.value y k = E.cfg.value x k) (hy : y = x ∨ (x = s ∧ y = t)) :
    (∀ w, meaning E root x k = .link w → meaning { E with cfg := c' } root y k = .link w) ∧
    (∀ evs, meaning E root x k = .events evs → ∃ evs', meaning { E with cfg := c' } root y k = .events evs' ∧ Rel E s t evs evs') := by
  rcases hy with rfl | ⟨rfl, rfl⟩
  · have : meaning { E with cfg := c' } root y k = meaning E root y k := by
      unfold meaning
      rw [show ({ E with cfg := c' } : Env δ ω).cfg.value y k = E.cfg.value y k from hv]
      rfl
    rw [this]
    exact ⟨fun _ h => h, fun evs h => ⟨evs, h, rel_refl _⟩⟩
  · unfold meaning
    rw [show ({ E with cfg := c' } : Env δ ω).cfg.value y k = E.cfg.value x k from hv]
    have hp : ∀ op, publicHandler ({ E with cfg := c' } : Env δ ω) op = publicHandler E op := fun _ => rfl
    cases E.cfg.value x k with
    | error e => exact ⟨fun _ h => (by cases h), fun evs h => ⟨evs, h, rel_refl _⟩⟩
    | ok v =>
      dsimp only
      cases shlexSplit (strip k) with
      | error e => exact ⟨fun _ h => (by cases h), fun evs h => ⟨evs, h, rel_refl _⟩⟩
      | ok ws =>
        cases ws with
        | nil => exact ⟨fun _ h => (by cases h), fun evs h => ⟨evs, h, rel_refl _⟩⟩
        | cons word params =>
          dsimp only
          by_cases hw : OpWord word
          · rw [if_pos hw, if_pos hw, hp]
            cases h1 : publicHandler E (opName word) with
            | none =>
              cases h2 : E.priv (opName word) with
              | none => exact ⟨fun _ h => (by cases h), fun evs h => ⟨evs, h, rel_refl _⟩⟩
              | some im =>
                cases im with
                | use =>
                  dsimp only
                  cases params with
                  | nil => exact ⟨fun _ h => (by cases h), fun evs h => ⟨evs, h, rel_refl _⟩⟩
                  | cons p ps => exact ⟨fun _ h => h, fun evs h => (by cases h)⟩
                | user h =>
                  refine ⟨fun _ h => (by cases h), fun evs hh => ?_⟩
                  cases hh
                  exact ⟨_, rfl, .call (.inr ⟨_, h2⟩) .nil⟩
            | some h =>
              cases h2 : E.priv (opName word) with
              | none =>
                refine ⟨fun _ h => (by cases h), fun evs hh => ?_⟩
                cases hh
                exact ⟨_, rfl, .call (.inl ⟨_, h1⟩) .nil⟩
              | some im =>
                refine ⟨fun _ h => (by cases h), fun evs hh => ?_⟩
                cases hh
                exact ⟨_, rfl, .same (.call (.inl ⟨_, h1⟩) .nil)⟩
          · rw [if_neg hw, if_neg hw]
            exact ⟨fun _ h => (by cases h), fun evs h => ⟨evs, h, rel_refl _⟩⟩

/-- The sections being unrolled in both files: the same but for the new one, which is unrolled below `s` only. -/
def PathRel (s t : Str) (p p' : List Str) : Prop := (∀ x, x ≠ t → (x ∈ p' ↔ x ∈ p)) ∧ (t ∈ p' → s ∈ p)

/-- The options unrolled one by one, and put together. -/
theorem unrolls_cons {E : Env δ ω} {p : List Str} {x k : Str} {ks : List Str} {e es : List (Ev δ ω)}
    (h1 : Unrolls E root (.opts p x [k]) e) (h2 : Unrolls E root (.opts p x ks) es) :
    Unrolls E root (.opts p x (k :: ks)) (e ++ es) := by
  cases h1 with
  | plain hm hr => cases hr; rw [List.append_nil]; exact .plain hm h2
  | cyclic hm hp hr => cases hr; exact .cyclic hm hp h2
  | link hm hp hs hr => cases hr; rw [List.append_nil]; exact .link hm hp hs h2

theorem unrolls_app {E : Env δ ω} {p : List Str} {x : Str} {ks ls : List Str} {e es : List (Ev δ ω)}
    (h1 : Unrolls E root (.opts p x ks) e) (h2 : Unrolls E root (.opts p x ls) es) :
    Unrolls E root (.opts p x (ks ++ ls)) (e ++ es) := by
  induction ks generalizing e with
  | nil => cases h1; exact h2
  | cons k ks ih =>
    cases h1 with
    | plain hm hr => rw [List.append_assoc]; exact .plain hm (ih hr)
    | cyclic hm hp hr => exact .cyclic hm hp (ih hr)
    | link hm hp hs hr => rw [List.append_assoc]; exact .link hm hp hs (ih hr)

/-- What is shown for one option of a section `x`. -/
def KeyOk (E : Env δ ω) (c' : Cfg) (s t root : Str) (p : List Str) (x k : Str) (e : List (Ev δ ω)) : Prop :=
  ∀ p' y, PathRel s t p p' → (y = x ∨ (x = s ∧ y = t)) → c'.value y k = E.cfg.value x k →
    meaning E root x k ≠ .link t →
    ∃ e', Unrolls { E with cfg := c' } root (.opts p' y [k]) e' ∧ Rel E s t e e'

theorem keys_ok {p : List Str} {x : Str} {p' : List Str} {y : Str} (hp : PathRel s t p p') (hy : y = x ∨ (x = s ∧ y = t))
    (L : List (Str × List (Ev δ ω))) (hL : ∀ q ∈ L, KeyOk E c' s t root p x q.1 q.2)
    (hv : ∀ k ∈ L.map Prod.fst, c'.value y k = E.cfg.value x k) (hl : ∀ k ∈ L.map Prod.fst, meaning E root x k ≠ .link t) :
    ∃ e', Unrolls { E with cfg := c' } root (.opts p' y (L.map Prod.fst)) e' ∧ Rel E s t (L.flatMap Prod.snd) e' := by
  induction L with
  | nil => exact ⟨[], .nil, .nil⟩
  | cons q L ih =>
    obtain ⟨e1, h1, h2⟩ := hL q (.head _) p' y hp hy (hv _ (.head _)) (hl _ (.head _))
    obtain ⟨e2, h3, h4⟩ := ih (fun q hq => hL q (.tail _ hq)) (fun k hk => hv k (.tail _ hk)) (fun k hk => hl k (.tail _ hk))
    exact ⟨e1 ++ e2, unrolls_cons h1 h3, rel_append h2 h4⟩

/-- The unrolling of the new file, for every section but the new one. -/
theorem unrolls_moved (M : Moved E c' s t u a m z) {task : Task} {evs : List (Ev δ ω)} (h : Unrolls E root task evs) :
    match task with
    | .sec p x => ∀ p', PathRel s t p p' → x ≠ t → x ∉ p →
        ∃ evs', Unrolls { E with cfg := c' } root (.sec p' x) evs' ∧ Rel E s t evs evs'
    | .opts p x keys => ∃ L : List (Str × List (Ev δ ω)), L.map Prod.fst = keys ∧ L.flatMap Prod.snd = evs ∧
        ∀ q ∈ L, KeyOk E c' s t root p x q.1 q.2 := by
  have hst : s ≠ t := by
    rintro rfl
    have := M.before; rw [M.new] at this; cases this
  induction h with
  | @missing path x ho =>
    intro p' hp hx hxp
    have hs : x ≠ s := by rintro rfl; rw [M.before] at ho; cases ho
    exact ⟨_, .missing ((M.others x hs hx).1.trans ho), rel_refl _⟩
  | @sec path x keys evs ho hu ih =>
    intro p' hp hx hxp
    obtain ⟨L, h1, h2, h3⟩ := ih
    have hlinks : ∀ k ∈ keys, meaning E root x k ≠ .link t := fun k hk hl =>
      M.unused x ⟨keys, k, ho, hk, meaning_link_root hl⟩
    have hp1 : PathRel s t (x :: path) (x :: p') :=
      ⟨fun y hy => by rw [List.mem_cons, List.mem_cons, hp.1 y hy], fun h => .tail _ (hp.2 (by
        rcases List.mem_cons.1 h with h | h
        · exact absurd h.symm hx
        · exact h))⟩
    by_cases hs : x = s
    · subst hs
      rw [M.before] at ho
      cases ho
      have htp : t ∉ p' := fun h => hxp (hp.2 h)
      obtain ⟨L12, Lz, rfl, h4, rfl⟩ := List.map_eq_append_iff.1 h1
      obtain ⟨La, Lm, rfl, rfl, rfl⟩ := List.map_eq_append_iff.1 h4
      obtain ⟨ea, ua, ra⟩ := keys_ok hp1 (.inl rfl) La (fun q hq => h3 q (by simp [hq]))
        (fun k hk => M.stayed k (List.mem_append.2 (.inl hk))) (fun k hk => hlinks k (by simp only [List.mem_append]; exact .inl (.inl hk)))
      obtain ⟨ez, uz, rz⟩ := keys_ok hp1 (.inl rfl) Lz (fun q hq => h3 q (by simp [hq]))
        (fun k hk => M.stayed k (List.mem_append.2 (.inr hk))) (fun k hk => hlinks k (by simp only [List.mem_append]; exact .inr hk))
      have hp2 : PathRel x t (x :: path) (t :: x :: p') :=
        ⟨fun y hy => by rw [List.mem_cons, hp1.1 y hy]; exact ⟨fun h => h.resolve_left hy, .inr⟩, fun _ => .head _⟩
      obtain ⟨em, um, rm⟩ := keys_ok hp2 (.inr ⟨rfl, rfl⟩) Lm (fun q hq => h3 q (by simp [hq]))
        (fun k hk => M.values k hk) (fun k hk => hlinks k (by simp only [List.mem_append]; exact .inl (.inr hk)))
      refine ⟨.visit x :: (ea ++ (.visit t :: em ++ ez)), .sec M.after (unrolls_app ua
        (.link (M.link root) (fun h => ?_) (.sec M.moved um) uz)), ?_⟩
      · rcases List.mem_cons.1 h with h | h
        · exact hst h.symm
        · exact htp h
      · rw [← h2, List.flatMap_append, List.flatMap_append, List.append_assoc]
        exact .same (rel_append ra (.visit (rel_append rm rz)))
    · obtain ⟨g1, g2⟩ := M.others x hs hx
      subst h1
      obtain ⟨e', u', r'⟩ := keys_ok hp1 (.inl rfl) L h3 (g2 _ ho) hlinks
      rw [h2] at r'
      exact ⟨_, .sec (g1.trans ho) u', .same r'⟩
  | nil => exact ⟨[], rfl, rfl, fun _ h => by cases h⟩
  | @plain path x k ks evs rest hm _ ih =>
    obtain ⟨L, h1, h2, h3⟩ := ih
    refine ⟨(k, evs) :: L, by simp [h1], by simp [h2], fun q hq => ?_⟩
    rcases List.mem_cons.1 hq with rfl | hq
    · intro p' y hp hy hv _
      obtain ⟨evs', g1, g2⟩ := (meaning_moved (root := root) hv hy).2 _ hm
      exact ⟨evs' ++ [], .plain g1 .nil, by rw [List.append_nil]; exact g2⟩
    · exact h3 q hq
  | @cyclic path x k ks w rest hm hw _ ih =>
    obtain ⟨L, h1, h2, h3⟩ := ih
    refine ⟨(k, [.cycle x w]) :: L, by simp [h1], by simp [h2], fun q hq => ?_⟩
    rcases List.mem_cons.1 hq with rfl | hq
    · intro p' y hp hy hv hl
      have hwt : w ≠ t := by rintro rfl; exact hl hm
      have g1 := (meaning_moved (root := root) hv hy).1 _ hm
      refine ⟨[.cycle y w], .cyclic g1 ((hp.1 w hwt).2 hw) .nil, ?_⟩
      rcases hy with rfl | ⟨rfl, rfl⟩
      · exact rel_refl _
      · exact .cycle .nil
    · exact h3 q hq
  | @link path x k ks w sub rest hm hw _ _ ih1 ih2 =>
    obtain ⟨L, h1, h2, h3⟩ := ih2
    refine ⟨(k, sub) :: L, by simp [h1], by simp [h2], fun q hq => ?_⟩
    rcases List.mem_cons.1 hq with rfl | hq
    · intro p' y hp hy hv hl
      have hwt : w ≠ t := by rintro rfl; exact hl hm
      have g1 := (meaning_moved (root := root) hv hy).1 _ hm
      obtain ⟨sub', g2, g3⟩ := ih1 p' hp hwt hw
      refine ⟨sub' ++ [], .link g1 (fun h => hw ((hp.1 w hwt).1 h)) g2 .nil, by rw [List.append_nil]; exact g3⟩
    · exact h3 q hq

/-- The unrolling of a whole parse. -/
theorem parseTrace_moved (M : Moved E c' s t u a m z) (hr : root ≠ t) {i f : Bool} {evs : List (Ev δ ω)}
    (h : ParseTrace E root i f evs) : ∃ evs', ParseTrace { E with cfg := c' } root i f evs' ∧ Rel E s t evs evs' := by
  have hp : PathRel s t [] [] := ⟨fun _ _ => Iff.rfl, fun h => by cases h⟩
  obtain ⟨h1, h2, h3⟩ := h
  rename_i evD evR
  obtain ⟨evR', u1, r1⟩ := unrolls_moved M h3 [] hp hr (by simp)
  have hd : ({ E with cfg := c' } : Env δ ω).cfg.hasSection E.defaultName = E.cfg.hasSection E.defaultName := M.default.1
  by_cases hx : i = true ∧ E.cfg.hasSection E.defaultName = true
  · obtain ⟨evD', u2, r2⟩ := unrolls_moved M (h1 hx) [] hp M.default.2.symm (by simp)
    exact ⟨_, .mk (fun _ => u2) (fun hn => absurd ⟨hx.1, hd.trans hx.2⟩ hn) u1,
      rel_append (rel_append (rel_append (rel_refl _) r2) r1) (rel_refl _)⟩
  · refine ⟨_, .mk (evD := []) (fun hn => absurd ⟨hn.1, hd.symm.trans hn.2⟩ hx) (fun _ => rfl) u1, ?_⟩
    rw [h2 hx]
    exact rel_append (rel_append (rel_refl _) r1) (rel_refl _)

/-! ### Replaying -/

/-- The same but for the data of the section `t`. -/
structure CoreRel (t : Str) (c d : Core δ ω) : Prop where
  data : ∀ x, x ≠ t → Dict.get? d.data x = Dict.get? c.data x
  checked : d.checked = c.checked
  shared : d.shared = c.shared
  self : d.self = c.self
  out : d.out = c.out

theorem notify_moved {ev : Event} {n : Nat} {e : PyExc} {c d : Core δ ω} (h : CoreRel t c d) :
    (notify { E with cfg := c' } ev n e d).1 = (notify E ev n e c).1 ∧
    CoreRel t (notify E ev n e c).2 (notify { E with cfg := c' } ev n e d).2 := by
  unfold notify
  dsimp only
  split
  · exact ⟨rfl, h⟩
  · split
    · exact ⟨rfl, h.data, h.checked, h.shared, h.self, by rw [h.out]⟩
    · exact ⟨rfl, h⟩

theorem visit_get (d : Dict Str Options) (x y : Str) :
    Dict.get? (if (Dict.get? d x).isSome = true then d else d ++ [(x, [])]) y =
      if y = x then some ((Dict.get? d x).getD []) else Dict.get? d y := by
  cases h : Dict.get? d x with
  | none => simp [get?_append_single _ _ _ _ h]
  | some o =>
    simp only [Option.isSome_some, if_true, Option.getD_some]
    split
    · rename_i e; rw [e, h]
    · rfl

theorem evStep_moved (hr : root ≠ t) (ev : Ev δ ω) {c d : Core δ ω} (h : CoreRel t c d) :
    (evStep { E with cfg := c' } root ev d).1 = (evStep E root ev c).1 ∧
    CoreRel t (evStep E root ev c).2 (evStep { E with cfg := c' } root ev d).2 := by
  cases ev with
  | visit x =>
    refine ⟨rfl, ⟨fun y hy => ?_, ?_, ?_, ?_, ?_⟩⟩
    · have key : ∀ c : Core δ ω, Dict.get? (evStep E root (.visit x) c).2.data y =
          if y = x then some ((Dict.get? c.data x).getD []) else Dict.get? c.data y := by
        intro c
        rw [← visit_get]
        show Dict.get? (if (Dict.get? c.data x).isSome = true then c else _).data y = _
        split <;> rfl
      rw [key c, show evStep { E with cfg := c' } root (.visit x) d = evStep E root (.visit x) d from rfl, key d]
      split
      · rename_i e; subst e; rw [h.data y hy]
      · exact h.data y hy
    all_goals
      simp only [evStep]
      split <;> split <;> first | exact h.checked | exact h.shared | exact h.self | exact h.out
  | missing x => exact ⟨rfl, h⟩
  | store k v =>
    refine ⟨rfl, ⟨fun y hy => ?_, h.checked, h.shared, h.self, h.out⟩⟩
    simp only [evStep]
    rw [Dict.get?_set, Dict.get?_set, h.data root hr, h.data y hy]
  | call g hc =>
    simp only [evStep, h.shared, h.self]
    cases (g.run hc c.shared c.self).1 with
    | error e => exact ⟨rfl, h.data, h.checked, rfl, rfl, h.out⟩
    | ok v =>
      dsimp only
      have h' : CoreRel t { c with shared := (g.run hc c.shared c.self).2.1, self := (g.run hc c.shared c.self).2.2 }
          { d with shared := (g.run hc c.shared c.self).2.1, self := (g.run hc c.shared c.self).2.2 } := ⟨h.data, h.checked, rfl, rfl, h.out⟩
      split
      · unfold onReturn
        cases v with
        | notInt => exact ⟨rfl, h'⟩
        | int n =>
          dsimp only
          split
          · exact ⟨rfl, h'⟩
          · split
            · exact ⟨rfl, h'⟩
            · exact notify_moved h'
      · exact ⟨rfl, h'⟩
  | cycle x y => exact notify_moved h
  | ambiguous op => exact notify_moved h
  | fail e => exact ⟨rfl, h⟩

theorem visit_new {c d : Core δ ω} (h : CoreRel t c d) :
    (evStep { E with cfg := c' } root (.visit t) d).1 = none ∧ CoreRel t c (evStep { E with cfg := c' } root (.visit t) d).2 := by
  refine ⟨rfl, ⟨fun y hy => ?_, ?_, ?_, ?_, ?_⟩⟩
  · rw [← h.data y hy]
    have := visit_get d.data t y
    rw [if_neg hy] at this
    rw [← this]
    show Dict.get? (if (Dict.get? d.data t).isSome = true then d else _).data y = _
    split <;> rfl
  all_goals
    simp only [evStep]
    split <;> first | exact h.checked | exact h.shared | exact h.self | exact h.out

theorem replay_step {E : Env δ ω} {ev : Ev δ ω} {l : List (Ev δ ω)} {c : Core δ ω} :
    replay E root (ev :: l) c = match (evStep E root ev c).1 with
      | none => replay E root l (evStep E root ev c).2
      | some e => (some e, (evStep E root ev c).2) := by
  rw [replay]
  rcases evStep E root ev c with ⟨_ | e, c2⟩ <;> rfl

theorem replay_moved (hi : Indifferent E) (hr : root ≠ t) {l l' : List (Ev δ ω)} (h : Rel E s t l l') :
    ∀ c d : Core δ ω, CoreRel t c d →
      (replay { E with cfg := c' } root l' d).1 = (replay E root l c).1 ∧
      CoreRel t (replay E root l c).2 (replay { E with cfg := c' } root l' d).2 := by
  -- two events that do the same
  have key : ∀ (ev ev' : Ev δ ω) (l l' : List (Ev δ ω)), (∀ c, evStep E root ev' c = evStep E root ev c) →
      (∀ c d : Core δ ω, CoreRel t c d → (replay { E with cfg := c' } root l' d).1 = (replay E root l c).1 ∧
        CoreRel t (replay E root l c).2 (replay { E with cfg := c' } root l' d).2) →
      ∀ c d : Core δ ω, CoreRel t c d → (replay { E with cfg := c' } root (ev' :: l') d).1 = (replay E root (ev :: l) c).1 ∧
        CoreRel t (replay E root (ev :: l) c).2 (replay { E with cfg := c' } root (ev' :: l') d).2 := by
    intro ev ev' l l' he ih c d hcd
    obtain ⟨h1, h2⟩ := evStep_moved (E := E) (c' := c') hr ev' hcd
    rw [he] at h1 h2
    rw [replay_step, replay_step, h1]
    cases (evStep E root ev c).1 with
    | none => exact ih _ _ h2
    | some e => exact ⟨rfl, h2⟩
  induction h with
  | nil => exact fun c d h => ⟨rfl, h⟩
  | same _ ih => exact key _ _ _ _ (fun _ => rfl) ih
  | visit _ ih =>
    intro c d hcd
    obtain ⟨h1, h2⟩ := visit_new (E := E) (c' := c') (root := root) hcd
    rw [replay_step, h1]
    exact ih _ _ h2
  | @call g hc _ _ ho _ ih =>
    refine key _ _ _ _ (fun c => ?_) ih
    simp only [evStep, hi g ho]
  | cycle _ ih => exact key _ _ _ _ (fun _ => rfl) ih

/-! ### Links -/

/-- What is reached in the new file was reached before. -/
theorem reaches_moved (M : Moved E c' s t u a m z) {x w : Str} (h : Reaches { E with cfg := c' } x w) (hw : w ≠ t) :
    (x ≠ t → Reaches E x w) ∧ (x = t → Reaches E s w) := by
  have hst : s ≠ t := by
    rintro rfl
    have := M.before; rw [M.new] at this; cases this
  induction h with
  | refl x => exact ⟨fun _ => .refl _, fun h => absurd h hw⟩
  | @step x y w hl _ ih =>
    obtain ⟨ih1, ih2⟩ := ih hw
    obtain ⟨keys, k, h1, h2, h3⟩ := hl
    -- an option with the same value links to the same section
    have back : ∀ x0 y0, c'.value y0 k = E.cfg.value x0 k → (y0 = x0 ∨ (x0 = s ∧ y0 = t)) → y0 = x →
        ∀ ks, E.cfg.optionNames x0 = some ks → k ∈ ks → Reaches E x0 w := by
      rintro x0 y0 hv hy rfl ks hks hk
      obtain ⟨g1, g2⟩ := meaning_moved (E := E) (root := y0) hv hy
      cases hm : meaning E y0 x0 k with
      | link v =>
        have := g1 v hm
        rw [h3] at this
        cases this
        have hlk : Links E x0 y := ⟨ks, k, hks, hk, meaning_link_root hm⟩
        exact .step hlk (ih1 fun e => M.unused x0 (e ▸ hlk))
      | events evs =>
        obtain ⟨_, g3, _⟩ := g2 evs hm
        rw [h3] at g3; cases g3
    constructor
    · intro hx
      by_cases hs : x = s
      · subst hs
        rw [show ({ E with cfg := c' } : Env δ ω).cfg.optionNames x = _ from M.after] at h1
        cases h1
        rcases List.mem_append.1 h2 with h2 | h2
        · exact back x x (M.stayed k (by simp [h2])) (.inl rfl) rfl _ M.before (by simp [h2])
        · rcases List.mem_cons.1 h2 with rfl | h2
          · rw [M.link] at h3
            cases h3
            exact ih2 rfl
          · exact back x x (M.stayed k (by simp [h2])) (.inl rfl) rfl _ M.before (by simp [h2])
      · obtain ⟨g1, g2⟩ := M.others x hs hx
        rw [show ({ E with cfg := c' } : Env δ ω).cfg.optionNames x = _ from g1] at h1
        exact back x x (g2 _ h1 k h2) (.inl rfl) rfl _ h1 h2
    · rintro rfl
      rw [show ({ E with cfg := c' } : Env δ ω).cfg.optionNames x = _ from M.moved] at h1
      cases h1
      exact back s x (M.values k h2) (.inr ⟨rfl, rfl⟩) rfl _ M.before (by simp [h2])

end CPE
